import Verif.Lemmas.HslBack
import Verif.Props.Tonal

/-!
# Combining changes of hue, saturation and lightness (C71, C102)

In exact arithmetic. `1 / 32768` is the tolerance of colour comparison.
-/

namespace D10
open Spec

variable [Junk]

/-! ## C71: hue rotation of colours -/

/-- C71: rotating a colour adds `angle / 360` to its hue, reduced to [0, 1), for angles in [-360, 360]. -/
theorem C71_rotation (c : Col ℝ) (h : Spec.Unit c) (angle : ℝ) (a0 : -360 ≤ angle) (a1 : angle ≤ 360) :
    Rgb.with_hue_rotate c angle = viaHsl (fun h s l => (Int.fract (h + angle / 360), s, l)) c := by
  obtain ⟨h0, h1, _⟩ := C28_hsl_range c h
  unfold Rgb.with_hue_rotate viaHsl
  simp only
  rw [C71_wraps_once (Rgb.to_hsl c).c0 angle h0 h1 a0 a1]
  rfl

/-- C71: from three turns on, rotation makes every colour gray: a colour that is not nearly gray already
gets its least channel everywhere. -/
theorem C71_large_angle_gray (c : Col ℝ) (h : Spec.Unit c) (angle : ℝ) (ha : 1080 ≤ angle) :
    (∃ v, Rgb.with_hue_rotate c angle = ⟨v, v, v, c.alpha⟩) ∧
    (1 / 32768 ≤ max c.c0 (max c.c1 c.c2) - min c.c0 (min c.c1 c.c2) →
      (Rgb.with_hue_rotate c angle).c0 = min c.c0 (min c.c1 c.c2)) := by
  obtain ⟨hm0, hM1, m1, m2, m3, M1, M2, M3⟩ := unit_minmax h
  rw [(C83_hue c angle 0 0 0 0).1]
  unfold viaHsl
  show (∃ v, Hsl.to_rgb _ = (⟨v, v, v, c.alpha⟩ : Col ℝ)) ∧ (_ → (Hsl.to_rgb _).c0 = _)
  obtain ⟨h0, _⟩ := C28_hsl_range c h
  have h0 : 0 ≤ (Rgb.to_hsl c).c0 := h0
  have hb : 3 ≤ angle / 360 := by linarith
  show (∃ v, Hsl.to_rgb ⟨(if 1 ≤ (Rgb.to_hsl c).c0 + angle / 360 then (Rgb.to_hsl c).c0 + angle / 360 - 1
      else if (Rgb.to_hsl c).c0 + angle / 360 < 0 then (Rgb.to_hsl c).c0 + angle / 360 + 1
      else (Rgb.to_hsl c).c0 + angle / 360), (Rgb.to_hsl c).c1, (Rgb.to_hsl c).c2, c.alpha⟩
        = (⟨v, v, v, c.alpha⟩ : Col ℝ)) ∧ (_ → (Hsl.to_rgb ⟨(if 1 ≤ (Rgb.to_hsl c).c0 + angle / 360 then
          (Rgb.to_hsl c).c0 + angle / 360 - 1
      else if (Rgb.to_hsl c).c0 + angle / 360 < 0 then (Rgb.to_hsl c).c0 + angle / 360 + 1
      else (Rgb.to_hsl c).c0 + angle / 360), (Rgb.to_hsl c).c1, (Rgb.to_hsl c).c2, c.alpha⟩).c0 = _)
  rw [if_pos (by linarith)]
  by_cases hd : max c.c0 (max c.c1 c.c2) - min c.c0 (min c.c1 c.c2) < 1 / 32768
  · refine ⟨?_, fun hd' => absurd hd (not_lt.2 hd')⟩
    rw [Exact.to_hsl_gray h hd]
    unfold Hsl.to_rgb
    ex_simp
    rw [if_pos trivial]
    unfold Rgb.new_with_alpha
    rw [Exact.clamp01_id h.a0 h.a1]
    exact ⟨_, rfl⟩
  · have hd := not_lt.1 hd
    rw [Exact.to_hsl_color h rfl rfl hd] at h0 ⊢
    simp only at h0 ⊢
    rw [Exact.hsl_pq hm0 hM1 (by linarith)]
    have low : ∀ t : ℝ, 5 / 3 ≤ t → Hsl.hue2rgb (min c.c0 (min c.c1 c.c2)) (max c.c0 (max c.c1 c.c2)) t
        = min c.c0 (min c.c1 c.c2) := by
      intro t ht
      rw [Exact.hue2rgb_high (by linarith)]
      unfold hueRamp
      rw [if_neg (by linarith), if_neg (by linarith), if_neg (by linarith)]
    rw [low _ (by linarith), low _ (by linarith), low _ (by linarith)]
    unfold Rgb.new_with_alpha
    rw [Exact.clamp01_id h.a0 h.a1, Exact.clamp01_id hm0 (by linarith)]
    exact ⟨⟨_, rfl⟩, fun _ => rfl⟩

/-! ## C102 -/

/-- C102: from HSL to RGB and back. If the channels span at least the tolerance, then saturation,
lightness and alpha return; the hue returns up to a share of the tolerance, and exactly unless it is that
little above yellow or cyan or below magenta. -/
theorem C102_hsl_back (x : Col ℝ) (h0 : 0 ≤ x.c0) (h1 : x.c0 < 1) (s0 : 0 ≤ x.c1) (s1 : x.c1 ≤ 1)
    (l0 : 0 ≤ x.c2) (l1 : x.c2 ≤ 1) (a0 : 0 ≤ x.alpha) (a1 : x.alpha ≤ 1)
    (hd : 1 / 32768 ≤ span x.c1 x.c2) :
    (to_hsl .rgb (to_rgb .hsl x)).c1 = x.c1 ∧ (to_hsl .rgb (to_rgb .hsl x)).c2 = x.c2 ∧
    (to_hsl .rgb (to_rgb .hsl x)).alpha = x.alpha ∧
    6 * (span x.c1 x.c2 * |(to_hsl .rgb (to_rgb .hsl x)).c0 - x.c0|) < 1 / 32768 ∧
    ((1 / 6 < x.c0 ∧ x.c0 < 2 / 6 → 1 / 32768 ≤ 6 * (span x.c1 x.c2 * (x.c0 - 1 / 6))) →
      (3 / 6 < x.c0 ∧ x.c0 < 4 / 6 → 1 / 32768 ≤ 6 * (span x.c1 x.c2 * (x.c0 - 3 / 6))) →
      (4 / 6 < x.c0 ∧ x.c0 < 5 / 6 → 1 / 32768 ≤ 6 * (span x.c1 x.c2 * (5 / 6 - x.c0))) →
      to_hsl .rgb (to_rgb .hsl x) = x) := by
  obtain ⟨h', e, _, _, e3, e4⟩ := Exact.hsl_back h0 h1 s0 s1 l0 l1 a0 a1 hd
  have e' : to_hsl .rgb (to_rgb .hsl x) = ⟨h', x.c1, x.c2, x.alpha⟩ := e
  rw [e']
  refine ⟨rfl, rfl, rfl, e3, fun g1 g2 g3 => ?_⟩
  rw [e4 g1 g2 g3]

/-- What a change of hue, saturation and lightness does after another. -/
theorem viaHsl_twice (f g : ℝ → ℝ → ℝ → ℝ × ℝ × ℝ) (c : Col ℝ) (hc : Spec.Unit c) {h s l : ℝ}
    (hf : f (to_hsl .rgb c).c0 (to_hsl .rgb c).c1 (to_hsl .rgb c).c2 = (h, s, l))
    (h0 : 0 ≤ h) (h1 : h < 1) (s0 : 0 ≤ s) (s1 : s ≤ 1) (l0 : 0 ≤ l) (l1 : l ≤ 1)
    (hd : 1 / 32768 ≤ span s l) :
    ∃ h', 0 ≤ h' ∧ h' < 1 ∧ 6 * (span s l * |h' - h|) < 1 / 32768 ∧
      viaHsl g (viaHsl f c) = Hsl.to_rgb ⟨(g h' s l).1, (g h' s l).2.1, (g h' s l).2.2, c.alpha⟩ := by
  have e1 : viaHsl f c = Hsl.to_rgb ⟨h, s, l, c.alpha⟩ := by
    unfold viaHsl; simp only [hf]; rfl
  obtain ⟨h', e, p0, p1, e3, _⟩ := Exact.hsl_back h0 h1 s0 s1 l0 l1 hc.a0 hc.a1 hd
  refine ⟨h', p0, p1, e3, ?_⟩
  have ea : (Hsl.to_rgb ⟨h, s, l, c.alpha⟩).alpha = c.alpha := by
    rw [Exact.hsl_to_rgb h0 h1.le s0 s1 l0 l1 hc.a0 hc.a1]
  rw [e1]
  unfold viaHsl
  have e : to_hsl .rgb (Hsl.to_rgb ⟨h, s, l, c.alpha⟩) = ⟨h', s, l, c.alpha⟩ := e
  simp only [e, ea]
  rfl

/-- The gray of lightness `l` is unchanged by operations that keep the lightness and saturation 0. -/
theorem viaHsl_gray (g : ℝ → ℝ → ℝ → ℝ × ℝ × ℝ) {l a : ℝ} (l0 : 0 ≤ l) (l1 : l ≤ 1) (a0 : 0 ≤ a)
    (a1 : a ≤ 1) (hg : (g 0 0 l).2 = (0, l)) : viaHsl g ⟨l, l, l, a⟩ = ⟨l, l, l, a⟩ := by
  have e : to_hsl .rgb (⟨l, l, l, a⟩ : Col ℝ) = ⟨0, 0, l, a⟩ := by
    show Rgb.to_hsl ⟨l, l, l, a⟩ = _
    rw [Exact.to_hsl_gray ⟨l0, l1, l0, l1, l0, l1, a0, a1⟩ (by norm_num)]
    norm_num
  unfold viaHsl
  simp only [e, hg]
  show Hsl.to_rgb _ = _
  unfold Hsl.to_rgb
  ex_simp
  rw [if_pos trivial]
  unfold Rgb.new_with_alpha
  rw [Exact.clamp01_id l0 l1, Exact.clamp01_id a0 a1]

theorem to_rgb_gray {h l a : ℝ} (l0 : 0 ≤ l) (l1 : l ≤ 1) (a0 : 0 ≤ a) (a1 : a ≤ 1) :
    Hsl.to_rgb ⟨h, 0, l, a⟩ = (⟨l, l, l, a⟩ : Col ℝ) := by
  unfold Hsl.to_rgb
  ex_simp
  rw [if_pos trivial]
  unfold Rgb.new_with_alpha
  rw [Exact.clamp01_id l0 l1, Exact.clamp01_id a0 a1]

/-- The saturation and lightness of a colour: either they span the tolerance, or the saturation is 0. -/
theorem to_hsl_span (c : Col ℝ) (h : Spec.Unit c) :
    (to_hsl .rgb c).c1 = 0 ∨ 1 / 32768 ≤ span (to_hsl .rgb c).c1 (to_hsl .rgb c).c2 := by
  obtain ⟨hm0, hM1, m1, m2, m3, M1, M2, M3⟩ := unit_minmax h
  by_cases hd : max c.c0 (max c.c1 c.c2) - min c.c0 (min c.c1 c.c2) < 1 / 32768
  · left
    show (Rgb.to_hsl c).c1 = 0
    rw [Exact.to_hsl_gray h hd]
  · right
    have hd := not_lt.1 hd
    show 1 / 32768 ≤ span (Rgb.to_hsl c).c1 (Rgb.to_hsl c).c2
    rw [Exact.to_hsl_color h rfl rfl hd]
    simp only
    unfold span
    generalize max c.c0 (max c.c1 c.c2) = M at *
    generalize min c.c0 (min c.c1 c.c2) = m at *
    split
    · rw [abs_of_nonneg (by linarith), show 1 - (2 * ((M + m) / 2) - 1) = 2 - M - m by ring,
        div_mul_cancel₀ _ (by linarith)]
      exact hd
    · rw [abs_of_nonpos (by linarith), show 1 - -(2 * ((M + m) / 2) - 1) = M + m by ring,
        div_mul_cancel₀ _ (by linarith)]
      exact hd

/-- Two colours of the same saturation and lightness, with hues that differ by a share of `e`. -/
theorem apart_of_hue {h k s l a e u v : ℝ} (eh : Int.fract u = h) (ek : Int.fract v = k) (s0 : 0 ≤ s)
    (s1 : s ≤ 1) (l0 : 0 ≤ l) (l1 : l ≤ 1) (a0 : 0 ≤ a) (a1 : a ≤ 1)
    (he : 6 * (span s l * |u - v|) ≤ e) :
    Apart e (Hsl.to_rgb ⟨h, s, l, a⟩) (Hsl.to_rgb ⟨k, s, l, a⟩) := by
  obtain ⟨d0, _, _⟩ := span_range s0 s1 l0 l1
  subst eh ek
  rw [Exact.hsl_to_rgb (Int.fract_nonneg u) (Int.fract_lt_one u).le s0 s1 l0 l1 a0 a1,
    Exact.hsl_to_rgb (Int.fract_nonneg v) (Int.fract_lt_one v).le s0 s1 l0 l1 a0 a1]
  have key : ∀ t, |hslChannel s l (Int.fract u + t) - hslChannel s l (Int.fract v + t)| ≤ e := by
    intro t
    unfold hslChannel
    rw [turn_fract_add, turn_fract_add]
    have := hslChannel_lip d0 (u + t) (v + t)
    unfold hslChannel at this
    rw [add_sub_add_right_eq_sub] at this
    exact this.trans he
  refine ⟨key _, ?_, ?_, rfl⟩
  · have := key 0
    rwa [add_zero, add_zero] at this
  · have := key (-(1 / 3))
    rwa [← sub_eq_add_neg, ← sub_eq_add_neg] at this

theorem Spec.Apart.eq {x y : Col ℝ} (h : Apart (1 / 32768) x y) : Col.eq x y = true := by
  rw [Exact.col_eq]
  exact ⟨h.1, h.2.1, h.2.2.1, by rw [h.2.2.2, sub_self, abs_zero]; norm_num⟩

theorem hue_twice (c : Col ℝ) (h : Spec.Unit c) (a b : ℝ) (a0 : -360 ≤ a) (a1 : a ≤ 360)
    (b0 : -360 ≤ b) (b1 : b ≤ 360) (c0 : -360 ≤ a + b) (c1 : a + b ≤ 360) :
    Apart (1 / 32768) (Rgb.with_hue_rotate (Rgb.with_hue_rotate c a) b)
      (Rgb.with_hue_rotate c (a + b)) := by
  obtain ⟨h0, h1, s0, s1, l0, l1, _⟩ := C28_hsl_range c h
  have hu : Spec.Unit (Rgb.with_hue_rotate c a) := by
    rw [C71_rotation c h a a0 a1]
    unfold viaHsl
    show Spec.Unit (Hsl.to_rgb _)
    rw [Exact.hsl_to_rgb (Int.fract_nonneg _) (Int.fract_lt_one _).le s0 s1 l0 l1 h.a0 h.a1]
    constructor <;> first | exact h.a0 | exact h.a1 | exact (hslChannel_range s0 s1 l0 l1).1 |
      exact (hslChannel_range s0 s1 l0 l1).2
  rw [C71_rotation _ hu b b0 b1, C71_rotation c h a a0 a1, C71_rotation c h (a + b) c0 c1]
  generalize hH : (to_hsl .rgb c).c0 = H at *
  generalize hS : (to_hsl .rgb c).c1 = S at *
  generalize hL : (to_hsl .rgb c).c2 = L at *
  have e2 : viaHsl (fun h s l => (Int.fract (h + (a + b) / 360), s, l)) c
      = Hsl.to_rgb ⟨Int.fract (H + (a + b) / 360), S, L, c.alpha⟩ := by
    unfold viaHsl; simp only [hH, hS, hL]; rfl
  rw [e2]
  have hsp := to_hsl_span c h
  rw [hS, hL] at hsp
  rcases hsp with hz | hd
  · rw [hz] at hS ⊢
    have e1 : viaHsl (fun h s l => (Int.fract (h + a / 360), s, l)) c = ⟨L, L, L, c.alpha⟩ := by
      unfold viaHsl; simp only [hH, hS, hL]; exact to_rgb_gray l0 l1 h.a0 h.a1
    rw [e1, viaHsl_gray _ l0 l1 h.a0 h.a1 rfl, to_rgb_gray l0 l1 h.a0 h.a1]
    refine ⟨?_, ?_, ?_, rfl⟩ <;> rw [sub_self, abs_zero] <;> norm_num
  · obtain ⟨h', p0, p1, e, et⟩ := viaHsl_twice (fun h s l => (Int.fract (h + a / 360), s, l))
      (fun h s l => (Int.fract (h + b / 360), s, l)) c h (h := Int.fract (H + a / 360)) (s := S) (l := L)
      (by simp only [hH, hS, hL]) (Int.fract_nonneg _) (Int.fract_lt_one _) s0 s1 l0 l1 hd
    rw [et]
    simp only
    refine apart_of_hue (u := h' + b / 360) (v := Int.fract (H + a / 360) + b / 360) rfl ?_ s0 s1 l0 l1
      h.a0 h.a1 ?_
    · have : Int.fract (H + a / 360) + b / 360 = H + (a + b) / 360 + ((-⌊H + a / 360⌋ : ℤ) : ℝ) := by
        unfold Int.fract; push_cast; ring
      rw [this, Int.fract_add_intCast]
    · rw [add_sub_add_right_eq_sub]; exact e.le

/-- C102: two rotations in a row are one rotation by the sum, as `==` sees it. -/
theorem C102_hue_twice (c : Col ℝ) (h : Spec.Unit c) (a b : ℝ) (a0 : -360 ≤ a) (a1 : a ≤ 360)
    (b0 : -360 ≤ b) (b1 : b ≤ 360) (c0 : -360 ≤ a + b) (c1 : a + b ≤ 360) :
    Col.eq (Rgb.with_hue_rotate (Rgb.with_hue_rotate c a) b) (Rgb.with_hue_rotate c (a + b)) = true :=
  (hue_twice c h a b a0 a1 b0 b1 c0 c1).eq

/-- C102: a rotation is undone by the opposite one, up to twice the tolerance. -/
theorem C102_hue_undo (c : Col ℝ) (h : Spec.Unit c) (a : ℝ) (a0 : -360 ≤ a) (a1 : a ≤ 360) :
    Apart (2 / 32768) (Rgb.with_hue_rotate (Rgb.with_hue_rotate c a) (-a)) c := by
  obtain ⟨t1, t2, t3, t4⟩ := hue_twice c h a (-a) a0 a1 (by linarith) (by linarith) (by linarith)
    (by linarith)
  rw [add_neg_cancel] at t1 t2 t3 t4
  obtain ⟨h0, h1, s0, s1, l0, l1, _, ea⟩ := C28_hsl_range c h
  have e : Rgb.with_hue_rotate c 0 = to_rgb .hsl (to_hsl .rgb c) := by
    rw [C71_rotation c h 0 (by norm_num) (by norm_num)]
    unfold viaHsl
    simp only
    rw [zero_div, add_zero, Int.fract_eq_self.2 ⟨h0, h1⟩, ← ea]
  have n := C28_hsl_round_trip c h
  rw [← e, Exact.col_eq] at n
  have al : (Rgb.with_hue_rotate c 0).alpha = c.alpha := by
    rw [e]
    show (Hsl.to_rgb _).alpha = _
    rw [Exact.hsl_to_rgb h0 h1.le s0 s1 l0 l1 (by rw [ea]; exact h.a0) (by rw [ea]; exact h.a1), ea]
  have tri : ∀ x y z : ℝ, |x - y| ≤ 1 / 32768 → |y - z| ≤ 1 / 32768 → |x - z| ≤ 2 / 32768 := by
    intro x y z p q
    have := abs_sub_le x y z
    linarith
  exact ⟨tri _ _ _ t1 n.1, tri _ _ _ t2 n.2.1, tri _ _ _ t3 n.2.2.1, t4.trans al⟩

omit [Junk] in
theorem limit_mul {k x : ℝ} (h0 : 0 ≤ k * x) (h1 : k * x ≤ 1) : limit (k * x) = k * x := limit_id h0 h1

omit [Junk] in
theorem span_limit {k s l : ℝ} (k0 : 0 ≤ k) (s0 : 0 ≤ s) (l0 : 0 ≤ l) (l1 : l ≤ 1) :
    span (limit (k * s)) l ≤ k * span s l := by
  unfold span
  have : limit (k * s) ≤ k * s := by
    unfold limit
    exact max_le (mul_nonneg k0 s0) (min_le_right _ _)
  have f : 0 ≤ 1 - |2 * l - 1| := by
    have : |2 * l - 1| ≤ 1 := by rw [abs_le]; constructor <;> linarith
    linarith
  calc limit (k * s) * (1 - |2 * l - 1|) ≤ k * s * (1 - |2 * l - 1|) := mul_le_mul_of_nonneg_right this f
    _ = _ := by ring

/-- C102: scaling the saturation twice scales it by the product, if the first step neither reaches the
limit nor leaves the channels closer together than the tolerance. -/
theorem C102_saturation_twice (c : Col ℝ) (h : Spec.Unit c) (j k : ℝ) (j0 : 0 ≤ j) (k0 : 0 ≤ k)
    (hj : j * (to_hsl .rgb c).c1 ≤ 1)
    (hd : 1 / 32768 ≤ span (j * (to_hsl .rgb c).c1) (to_hsl .rgb c).c2) :
    Apart (k / 32768) (Rgb.with_saturation (Rgb.with_saturation c j) k) (Rgb.with_saturation c (k * j)) := by
  obtain ⟨h0, h1, s0, s1, l0, l1, _⟩ := C28_hsl_range c h
  rw [(C83_hsl _ k 1 one_pos).1, (C83_hsl c j 1 one_pos).1, (C83_hsl c (k * j) 1 one_pos).1]
  have js := mul_nonneg j0 s0
  obtain ⟨h', p0, p1, e, et⟩ := viaHsl_twice (fun h s l => (h, limit (j * s), l))
    (fun h s l => (h, limit (k * s), l)) c h (h := (to_hsl .rgb c).c0) (s := j * (to_hsl .rgb c).c1)
    (l := (to_hsl .rgb c).c2) (by rw [limit_mul js hj]) h0 h1 js hj l0 l1 hd
  rw [et]
  have e2 : viaHsl (fun h s l => (h, limit (k * j * s), l)) c = Hsl.to_rgb ⟨(to_hsl .rgb c).c0,
      limit (k * (j * (to_hsl .rgb c).c1)), (to_hsl .rgb c).c2, c.alpha⟩ := by
    unfold viaHsl; simp only [mul_assoc]; rfl
  rw [e2]
  simp only
  refine apart_of_hue (u := h') (v := (to_hsl .rgb c).c0) (Int.fract_eq_self.2 ⟨p0, p1⟩)
    (Int.fract_eq_self.2 ⟨h0, h1⟩) (limit_nonneg _) (limit_le_one _) l0 l1 h.a0 h.a1 ?_
  have := mul_le_mul_of_nonneg_right (span_limit (k := k) (s := j * (to_hsl .rgb c).c1) k0 js l0 l1)
    (abs_nonneg (h' - (to_hsl .rgb c).c0))
  have := mul_le_mul_of_nonneg_left e.le k0
  linarith

/-- C102: scaling the lightness twice scales it by the product, if the first step neither reaches the
limit nor leaves the channels closer together than the tolerance. The error grows as the channels are
spread again (`r`). -/
theorem C102_lightness_twice (c : Col ℝ) (h : Spec.Unit c) (j k r : ℝ) (j0 : 0 ≤ j)
    (hj : j * (to_hsl .rgb c).c2 ≤ 1)
    (hd : 1 / 32768 ≤ span (to_hsl .rgb c).c1 (j * (to_hsl .rgb c).c2))
    (hr : span (to_hsl .rgb c).c1 (limit (k * j * (to_hsl .rgb c).c2))
      ≤ r * span (to_hsl .rgb c).c1 (j * (to_hsl .rgb c).c2)) (r0 : 0 ≤ r) :
    Apart (r / 32768) (Rgb.with_lightness (Rgb.with_lightness c j) k) (Rgb.with_lightness c (k * j)) := by
  obtain ⟨h0, h1, s0, s1, l0, l1, _⟩ := C28_hsl_range c h
  rw [(C83_hsl _ k 1 one_pos).2.2.2, (C83_hsl c j 1 one_pos).2.2.2, (C83_hsl c (k * j) 1 one_pos).2.2.2]
  have jl := mul_nonneg j0 l0
  obtain ⟨h', p0, p1, e, et⟩ := viaHsl_twice (fun h s l => (h, s, limit (j * l)))
    (fun h s l => (h, s, limit (k * l))) c h (h := (to_hsl .rgb c).c0) (s := (to_hsl .rgb c).c1)
    (l := j * (to_hsl .rgb c).c2) (by rw [limit_mul jl hj]) h0 h1 s0 s1 jl hj hd
  rw [et]
  have e2 : viaHsl (fun h s l => (h, s, limit (k * j * l))) c = Hsl.to_rgb ⟨(to_hsl .rgb c).c0,
      (to_hsl .rgb c).c1, limit (k * (j * (to_hsl .rgb c).c2)), c.alpha⟩ := by
    unfold viaHsl; simp only [mul_assoc]; rfl
  rw [e2]
  simp only
  refine apart_of_hue (u := h') (v := (to_hsl .rgb c).c0) (Int.fract_eq_self.2 ⟨p0, p1⟩)
    (Int.fract_eq_self.2 ⟨h0, h1⟩) s0 s1 (limit_nonneg _) (limit_le_one _) h.a0 h.a1 ?_
  rw [mul_assoc] at hr
  have := mul_le_mul_of_nonneg_right hr (abs_nonneg (h' - (to_hsl .rgb c).c0))
  have := mul_le_mul_of_nonneg_left e.le r0
  linarith

omit [Junk] in
theorem Spec.Apart.trans {d e : ℝ} {x y z : Col ℝ} (h : Apart d x y) (g : Apart e y z) :
    Apart (d + e) x z := by
  obtain ⟨a1, a2, a3, a4⟩ := h
  obtain ⟨b1, b2, b3, b4⟩ := g
  exact ⟨(abs_sub_le _ _ _).trans (add_le_add a1 b1), (abs_sub_le _ _ _).trans (add_le_add a2 b2),
    (abs_sub_le _ _ _).trans (add_le_add a3 b3), a4.trans b4⟩

omit [Junk] in
theorem Spec.Apart.symm {d : ℝ} {x y : Col ℝ} (h : Apart d x y) : Apart d y x := by
  obtain ⟨a1, a2, a3, a4⟩ := h
  exact ⟨abs_sub_comm x.c0 _ ▸ a1, abs_sub_comm x.c1 _ ▸ a2, abs_sub_comm x.c2 _ ▸ a3, a4.symm⟩

omit [Junk] in
theorem Spec.Apart.refl {d : ℝ} (h : 0 ≤ d) (x : Col ℝ) : Apart d x x := by
  refine ⟨?_, ?_, ?_, rfl⟩ <;> rw [sub_self, abs_zero] <;> exact h

omit [Junk] in
/-- Every channel is within half the span of the lightness. -/
theorem hslChannel_near {s l : ℝ} (t : ℝ) (h : 0 ≤ span s l) :
    l - span s l / 2 ≤ hslChannel s l t ∧ hslChannel s l t ≤ l + span s l / 2 := by
  obtain ⟨t0, t1⟩ := turn_range t
  have := mul_nonneg h t0
  have := mul_le_mul_of_nonneg_left t1 h
  unfold hslChannel
  constructor <;> linarith

/-- C102: rotating the hue and scaling the saturation can be exchanged, up to `1 + k` tolerances. -/
theorem C102_hue_saturation (c : Col ℝ) (h : Spec.Unit c) (a k : ℝ) (a0 : -360 ≤ a) (a1 : a ≤ 360)
    (k0 : 0 ≤ k) :
    Apart ((1 + k) / 32768) (Rgb.with_saturation (Rgb.with_hue_rotate c a) k)
      (Rgb.with_hue_rotate (Rgb.with_saturation c k) a) := by
  obtain ⟨h0, h1, s0, s1, l0, l1, _⟩ := C28_hsl_range c h
  have hsp := to_hsl_span c h
  rw [(C83_hsl _ k 1 one_pos).1, C71_rotation c h a a0 a1]
  have e1 : Rgb.with_saturation c k = Hsl.to_rgb ⟨(to_hsl .rgb c).c0, limit (k * (to_hsl .rgb c).c1),
      (to_hsl .rgb c).c2, c.alpha⟩ := by
    rw [(C83_hsl c k 1 one_pos).1]; rfl
  have e1' := e1
  rw [Exact.hsl_to_rgb h0 h1.le (limit_nonneg _) (limit_le_one _) l0 l1 h.a0 h.a1] at e1'
  have hu : Spec.Unit (Rgb.with_saturation c k) := by
    rw [e1']
    constructor <;> first | exact h.a0 | exact h.a1 |
      exact (hslChannel_range (limit_nonneg _) (limit_le_one _) l0 l1).1 |
      exact (hslChannel_range (limit_nonneg _) (limit_le_one _) l0 l1).2
  rw [C71_rotation _ hu a a0 a1]
  obtain ⟨d0, m0, M1⟩ := span_range (limit_nonneg (k * (to_hsl .rgb c).c1))
    (limit_le_one (k * (to_hsl .rgb c).c1)) l0 l1
  obtain ⟨X, hX⟩ : ∃ X, X = Hsl.to_rgb ⟨Int.fract ((to_hsl .rgb c).c0 + a / 360),
      limit (k * (to_hsl .rgb c).c1), (to_hsl .rgb c).c2, c.alpha⟩ := ⟨_, rfl⟩
  have left : Apart (k / 32768) (viaHsl (fun h s l => (h, limit (k * s), l))
      (viaHsl (fun h s l => (Int.fract (h + a / 360), s, l)) c)) X := by
    rcases hsp with hz | hd
    · have z : limit 0 = 0 := limit_id le_rfl zero_le_one
      have e : viaHsl (fun h s l => (Int.fract (h + a / 360), s, l)) c
          = ⟨(to_hsl .rgb c).c2, (to_hsl .rgb c).c2, (to_hsl .rgb c).c2, c.alpha⟩ := by
        unfold viaHsl; simp only [hz]; exact to_rgb_gray l0 l1 h.a0 h.a1
      rw [e, viaHsl_gray _ l0 l1 h.a0 h.a1 (by simp only; rw [mul_zero, z]), hX, hz, mul_zero, z,
        to_rgb_gray l0 l1 h.a0 h.a1]
      exact Spec.Apart.refl (by positivity) _
    · obtain ⟨h', p0, p1, e, et⟩ := viaHsl_twice (fun h s l => (Int.fract (h + a / 360), s, l))
        (fun h s l => (h, limit (k * s), l)) c h rfl (Int.fract_nonneg _) (Int.fract_lt_one _) s0 s1 l0 l1 hd
      rw [et, hX]
      refine apart_of_hue (u := h') (v := Int.fract ((to_hsl .rgb c).c0 + a / 360))
        (Int.fract_eq_self.2 ⟨p0, p1⟩) (Int.fract_fract _) (limit_nonneg _) (limit_le_one _) l0 l1 h.a0 h.a1 ?_
      have := mul_le_mul_of_nonneg_right (span_limit (k := k) (s := (to_hsl .rgb c).c1) k0 s0 l0 l1)
        (abs_nonneg (h' - Int.fract ((to_hsl .rgb c).c0 + a / 360)))
      have := mul_le_mul_of_nonneg_left e.le k0
      linarith
  have right : Apart (1 / 32768) (viaHsl (fun h s l => (Int.fract (h + a / 360), s, l))
      (Rgb.with_saturation c k)) X := by
    rcases le_or_gt (1 / 32768) (span (limit (k * (to_hsl .rgb c).c1)) (to_hsl .rgb c).c2) with hd | hd
    · rw [(C83_hsl c k 1 one_pos).1]
      obtain ⟨h', p0, p1, e, et⟩ := viaHsl_twice (fun h s l => (h, limit (k * s), l))
        (fun h s l => (Int.fract (h + a / 360), s, l)) c h rfl h0 h1 (limit_nonneg _) (limit_le_one _)
        l0 l1 hd
      rw [et, hX]
      refine apart_of_hue (u := h' + a / 360) (v := (to_hsl .rgb c).c0 + a / 360) rfl rfl (limit_nonneg _)
        (limit_le_one _) l0 l1 h.a0 h.a1 ?_
      rw [add_sub_add_right_eq_sub]; exact e.le
    · rw [hX, Exact.hsl_to_rgb (Int.fract_nonneg _) (Int.fract_lt_one _).le (limit_nonneg _)
        (limit_le_one _) l0 l1 h.a0 h.a1]
      have hg := Exact.to_hsl_gray hu
      rw [e1'] at hg ⊢
      simp only at hg
      have n1 := hslChannel_near ((to_hsl .rgb c).c0 + 1 / 3) d0
      have n2 := hslChannel_near ((to_hsl .rgb c).c0) d0
      have n3 := hslChannel_near ((to_hsl .rgb c).c0 - 1 / 3) d0
      generalize hslChannel (limit (k * (to_hsl .rgb c).c1)) (to_hsl .rgb c).c2
        ((to_hsl .rgb c).c0 + 1 / 3) = r at *
      generalize hslChannel (limit (k * (to_hsl .rgb c).c1)) (to_hsl .rgb c).c2 ((to_hsl .rgb c).c0) = g at *
      generalize hslChannel (limit (k * (to_hsl .rgb c).c1)) (to_hsl .rgb c).c2
        ((to_hsl .rgb c).c0 - 1 / 3) = b at *
      have x1 : max r (max g b) ≤ _ := max_le n1.2 (max_le n2.2 n3.2)
      have x2 : _ ≤ min r (min g b) := le_min n1.1 (le_min n2.1 n3.1)
      have x3 : min r (min g b) ≤ max r (max g b) := (min_le_left _ _).trans (le_max_left _ _)
      have hg := hg (by linarith)
      unfold viaHsl
      have hg' : to_hsl .rgb (⟨r, g, b, c.alpha⟩ : Col ℝ)
        = ⟨0, 0, (max r (max g b) + min r (min g b)) / 2, c.alpha⟩ := hg
      simp only [hg']
      have tg := to_rgb_gray (h := Int.fract (0 + a / 360)) (l := (max r (max g b) + min r (min g b)) / 2)
        (by linarith) (by linarith) h.a0 h.a1
      show Apart _ (Hsl.to_rgb _) _
      rw [tg]
      have near : ∀ t, |(max r (max g b) + min r (min g b)) / 2
          - hslChannel (limit (k * (to_hsl .rgb c).c1)) (to_hsl .rgb c).c2 t| ≤ 1 / 32768 := by
        intro t
        have nt := hslChannel_near t d0
        rw [abs_le]; constructor <;> linarith
      exact ⟨near _, near _, near _, rfl⟩
  have := left.trans right.symm
  rwa [show k / 32768 + 1 / 32768 = (1 + k) / 32768 by ring] at this

/-- C102: a colour without saturation stays gray, and black stays black, whatever factor is tried. -/
theorem C102_lost (c : Col ℝ) (h : Spec.Unit c) (k : ℝ) :
    Rgb.with_saturation (Rgb.with_saturation c 0) k = Rgb.with_saturation c 0 ∧
    (∃ v, Rgb.with_saturation c 0 = ⟨v, v, v, c.alpha⟩) ∧
    Rgb.with_lightness c 0 = ⟨0, 0, 0, c.alpha⟩ ∧
    Rgb.with_lightness (Rgb.with_lightness c 0) k = ⟨0, 0, 0, c.alpha⟩ := by
  obtain ⟨h0, h1, s0, s1, l0, l1, _⟩ := C28_hsl_range c h
  have z : limit 0 = 0 := limit_id le_rfl zero_le_one
  have e1 : Rgb.with_saturation c 0 = ⟨(to_hsl .rgb c).c2, (to_hsl .rgb c).c2, (to_hsl .rgb c).c2, c.alpha⟩ := by
    rw [(C83_hsl c 0 1 one_pos).1]
    unfold viaHsl
    simp only
    rw [zero_mul, z]
    exact to_rgb_gray l0 l1 h.a0 h.a1
  have e2 : Rgb.with_lightness c 0 = ⟨0, 0, 0, c.alpha⟩ := by
    rw [(C83_hsl c 0 1 one_pos).2.2.2]
    unfold viaHsl
    simp only
    rw [zero_mul, z]
    show Hsl.to_rgb _ = _
    rw [Exact.hsl_to_rgb h0 h1.le s0 s1 le_rfl zero_le_one h.a0 h.a1]
    unfold hslChannel span
    norm_num
  refine ⟨?_, ⟨_, e1⟩, e2, ?_⟩
  · rw [e1, (C83_hsl _ k 1 one_pos).1]
    exact viaHsl_gray _ l0 l1 h.a0 h.a1 (by simp only; rw [mul_zero, z])
  · rw [e2, (C83_hsl _ k 1 one_pos).2.2.2]
    exact viaHsl_gray _ le_rfl zero_le_one h.a0 h.a1 (by simp only; rw [mul_zero, z])

/-! ## Examples -/

/-- An orange of half alpha. -/
example : Spec.Unit ⟨1, 1 / 2, 0, 1 / 2⟩ := by constructor <;> norm_num
example := C71_rotation ⟨1, 1 / 2, 0, 1 / 2⟩ (by constructor <;> norm_num) (-90) (by norm_num) (by norm_num)
example := (C71_large_angle_gray ⟨1, 1 / 2, 0, 1 / 2⟩ (by constructor <;> norm_num) 1080 le_rfl).2
  (by norm_num)
example := C102_hue_twice ⟨1, 1 / 2, 0, 1 / 2⟩ (by constructor <;> norm_num) 200 (-90) (by norm_num)
  (by norm_num) (by norm_num) (by norm_num) (by norm_num) (by norm_num)
example := C102_hue_undo ⟨1, 1 / 2, 0, 1 / 2⟩ (by constructor <;> norm_num) 120 (by norm_num) (by norm_num)
example := C102_hue_saturation ⟨1, 1 / 2, 0, 1 / 2⟩ (by constructor <;> norm_num) 120 (3 / 2) (by norm_num)
  (by norm_num) (by norm_num)

/-- A teal that returns exactly: hue 0.6, saturation 0.5, lightness 0.4. -/
example : to_hsl .rgb (to_rgb .hsl (⟨0.6, 0.5, 0.4, 1⟩ : Col ℝ)) = ⟨0.6, 0.5, 0.4, 1⟩ := by
  have sp : span (0.5 : ℝ) 0.4 = 0.4 := by
    unfold span; rw [abs_of_neg (by norm_num)]; norm_num
  refine (C102_hsl_back ⟨0.6, 0.5, 0.4, 1⟩ (by norm_num) (by norm_num) (by norm_num) (by norm_num)
    (by norm_num) (by norm_num) (by norm_num) (by norm_num) (by rw [sp]; norm_num)).2.2.2.2 ?_ ?_ ?_ <;>
    simp only [sp] <;> norm_num

/-- The orange halved and restored: saturation 1, lightness 1/2. -/
example : Apart (2 / 32768) (Rgb.with_saturation (Rgb.with_saturation (⟨1, 1 / 2, 0, 1⟩ : Col ℝ) (1 / 2)) 2)
      (Rgb.with_saturation ⟨1, 1 / 2, 0, 1⟩ 1) ∧
    Apart (2 / 32768) (Rgb.with_lightness (Rgb.with_lightness (⟨1, 1 / 2, 0, 1⟩ : Col ℝ) (1 / 2)) 2)
      (Rgb.with_lightness ⟨1, 1 / 2, 0, 1⟩ 1) := by
  have hu : Spec.Unit (⟨1, 1 / 2, 0, 1⟩ : Col ℝ) := by constructor <;> norm_num
  have e : to_hsl .rgb (⟨1, 1 / 2, 0, 1⟩ : Col ℝ) = ⟨1 / 12, 1, 1 / 2, 1⟩ := by
    show Rgb.to_hsl ⟨1, 1 / 2, 0, 1⟩ = _
    rw [Exact.to_hsl_color hu (M := 1) (m := 0) (by norm_num) (by norm_num) (by norm_num)]
    unfold hslSector
    norm_num
  constructor
  · have := C102_saturation_twice ⟨1, 1 / 2, 0, 1⟩ hu (1 / 2) 2 (by norm_num) (by norm_num)
      (by rw [e]; norm_num) (by rw [e]; unfold span; norm_num)
    norm_num at this ⊢
    exact this
  · have := C102_lightness_twice ⟨1, 1 / 2, 0, 1⟩ hu (1 / 2) 2 2 (by norm_num)
      (by rw [e]; norm_num) (by rw [e]; unfold span; norm_num) (by
        rw [e]; unfold span limit; norm_num) (by norm_num)
    norm_num at this ⊢
    exact this

end D10
