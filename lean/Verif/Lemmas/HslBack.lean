import Verif.SpecHsl
import Verif.Lemmas.HslTrip
import Mathlib.Algebra.Order.Floor.Ring

/-! # From HSL to RGB and back in exact arithmetic -/

namespace D10
open Spec

/-! ## The wheel as a periodic function -/

/-- `trap` repeated with period 1. -/
noncomputable def turn (t : ℝ) : ℝ := trap (Int.fract t)

theorem turn_wheel {t : ℝ} (h0 : -1 ≤ t) (h1 : t < 2) : turn t = wheel t := by
  unfold turn
  rcases lt_or_ge t 0 with h | h
  · rw [wheel_low h.le]
    congr 1
    rw [Int.fract_eq_iff]; exact ⟨by linarith, by linarith, -1, by push_cast; ring⟩
  · rcases lt_or_ge t 1 with h' | h'
    · rw [wheel_mid h h'.le]
      congr 1
      rw [Int.fract_eq_iff]; exact ⟨by linarith, by linarith, 0, by push_cast; ring⟩
    · rw [wheel_high h']
      congr 1
      rw [Int.fract_eq_iff]; exact ⟨by linarith, by linarith, 1, by push_cast; ring⟩

theorem turn_add_int (t : ℝ) (n : ℤ) : turn (t + n) = turn t := by
  unfold turn; rw [Int.fract_add_intCast]

theorem turn_fract_add (t k : ℝ) : turn (Int.fract t + k) = turn (t + k) := by
  have : Int.fract t + k = t + k + ((-⌊t⌋ : ℤ) : ℝ) := by
    unfold Int.fract; push_cast; ring
  rw [this, turn_add_int]

theorem turn_range (t : ℝ) : 0 ≤ turn t ∧ turn t ≤ 1 := ⟨trap_nonneg _, trap_le _⟩

theorem turn_lip (s t : ℝ) : |turn s - turn t| ≤ 6 * |s - t| := by
  obtain ⟨a0, a1⟩ := turn_range s
  obtain ⟨b0, b1⟩ := turn_range t
  rcases le_or_gt (1 / 6) |s - t| with h | h
  · have : |turn s - turn t| ≤ 1 := by rw [abs_le]; constructor <;> linarith
    linarith
  · rw [abs_lt] at h
    have es : turn s = wheel (s - ⌊s⌋) := by
      rw [← turn_wheel (by linarith [Int.floor_le s]) (by linarith [Int.lt_floor_add_one s])]
      have := turn_add_int s (-⌊s⌋)
      push_cast at this
      rw [sub_eq_add_neg, this]
    have et : turn t = wheel (t - ⌊s⌋) := by
      rw [← turn_wheel (by linarith [Int.floor_le s]) (by linarith [Int.lt_floor_add_one s])]
      have := turn_add_int t (-⌊s⌋)
      push_cast at this
      rw [sub_eq_add_neg, this]
    rw [es, et]
    have := wheel_lip (s - ⌊s⌋) (t - ⌊s⌋)
    rwa [sub_sub_sub_cancel_right] at this

section
variable [Junk]

theorem Exact.hue2rgb_turn {p q t : ℝ} (h0 : -1 / 3 ≤ t) (h1 : t ≤ 4 / 3) :
    Hsl.hue2rgb p q t = p + (q - p) * turn t := by
  rw [turn_wheel (by linarith) (by linarith)]
  have ramp : ∀ u : ℝ, 0 ≤ u → u ≤ 1 → hueRamp p q u = p + (q - p) * trap u := by
    intro u u0 u1
    unfold hueRamp
    split_ifs with c1 c2 c3
    · rw [trap_low (by linarith), min_eq_right (by linarith), max_eq_right (by linarith)]; ring
    · rcases le_total u (1 / 3) with h | h
      · rw [trap_low h, min_eq_left (by linarith), max_eq_right (by norm_num)]; ring
      · rw [trap_high h, min_eq_left (by linarith), max_eq_right (by norm_num)]; ring
    · rw [trap_high (by linarith), min_eq_right (by linarith), max_eq_right (by linarith)]; ring
    · rw [trap_right (by linarith)]; ring
  rcases lt_or_ge t 0 with h | h
  · rw [Exact.hue2rgb_low h, wheel_low h.le, ramp _ (by linarith) (by linarith)]
  · rcases le_or_gt t 1 with h' | h'
    · rw [Exact.hue2rgb_mid h h', wheel_mid h h', ramp _ h h']
    · rw [Exact.hue2rgb_high h', wheel_high h'.le, ramp _ (by linarith) (by linarith)]

end

/-! ## The greatest and the least channel -/

theorem span_range {s l : ℝ} (s0 : 0 ≤ s) (s1 : s ≤ 1) (l0 : 0 ≤ l) (l1 : l ≤ 1) :
    0 ≤ span s l ∧ 0 ≤ l - span s l / 2 ∧ l + span s l / 2 ≤ 1 := by
  unfold span
  rcases le_total (2 * l - 1) 0 with h | h
  · rw [abs_of_nonpos h]
    refine ⟨mul_nonneg s0 (by linarith), ?_, ?_⟩ <;> nlinarith
  · rw [abs_of_nonneg h]
    refine ⟨mul_nonneg s0 (by linarith), ?_, ?_⟩ <;> nlinarith

/-- One channel of the colour with hue distance `t`, saturation `s` and lightness `l`. -/
noncomputable def hslChannel (s l t : ℝ) : ℝ := l - span s l / 2 + span s l * turn t

theorem hslChannel_range {s l t : ℝ} (s0 : 0 ≤ s) (s1 : s ≤ 1) (l0 : 0 ≤ l) (l1 : l ≤ 1) :
    0 ≤ hslChannel s l t ∧ hslChannel s l t ≤ 1 := by
  obtain ⟨d0, m0, M1⟩ := span_range s0 s1 l0 l1
  obtain ⟨t0, t1⟩ := turn_range t
  unfold hslChannel
  have := mul_nonneg d0 t0
  have := mul_le_mul_of_nonneg_left t1 d0
  constructor <;> linarith

theorem hslChannel_lip {s l : ℝ} (h : 0 ≤ span s l) (t u : ℝ) :
    |hslChannel s l t - hslChannel s l u| ≤ 6 * (span s l * |t - u|) := by
  unfold hslChannel
  rw [show l - span s l / 2 + span s l * turn t - (l - span s l / 2 + span s l * turn u)
    = span s l * (turn t - turn u) by ring, abs_mul, abs_of_nonneg h]
  have := mul_le_mul_of_nonneg_left (turn_lip t u) h
  linarith

section
variable [Junk]

/-- HSL to RGB for every hue in [0, 1], saturation and lightness in [0, 1]. -/
theorem Exact.hsl_to_rgb {h s l a : ℝ} (h0 : 0 ≤ h) (h1 : h ≤ 1) (s0 : 0 ≤ s) (s1 : s ≤ 1)
    (l0 : 0 ≤ l) (l1 : l ≤ 1) (a0 : 0 ≤ a) (a1 : a ≤ 1) :
    Hsl.to_rgb ⟨h, s, l, a⟩ =
      ⟨hslChannel s l (h + 1 / 3), hslChannel s l h, hslChannel s l (h - 1 / 3), a⟩ := by
  have new : ∀ x y z : ℝ, 0 ≤ x ∧ x ≤ 1 → 0 ≤ y ∧ y ≤ 1 → 0 ≤ z ∧ z ≤ 1 →
      Rgb.new_with_alpha x y z a = ⟨x, y, z, a⟩ := fun x y z hx hy hz => by
    unfold Rgb.new_with_alpha
    rw [Exact.clamp01_id hx.1 hx.2, Exact.clamp01_id hy.1 hy.2, Exact.clamp01_id hz.1 hz.2,
      Exact.clamp01_id a0 a1]
  by_cases hs : s = 0
  · subst hs
    unfold Hsl.to_rgb hslChannel span
    ex_simp
    rw [if_pos trivial, new _ _ _ ⟨l0, l1⟩ ⟨l0, l1⟩ ⟨l0, l1⟩]
    norm_num
  · unfold Hsl.to_rgb
    ex_simp
    rw [if_neg hs]
    have hq : (if l < 0.5 then l * (1 + s) else l + s - l * s) = l + span s l / 2 := by
      unfold span
      split
      · rename_i c
        norm_num at c
        rw [abs_of_nonpos (by linarith)]; ring
      · rename_i c
        norm_num at c
        rw [abs_of_nonneg (by linarith)]; ring
    rw [hq, show 2 * l - (l + span s l / 2) = l - span s l / 2 by ring,
      Exact.hue2rgb_turn (by linarith) (by linarith), Exact.hue2rgb_turn (by linarith) (by linarith),
      Exact.hue2rgb_turn (by linarith) (by linarith),
      show l + span s l / 2 - (l - span s l / 2) = span s l by ring]
    exact new _ _ _ (hslChannel_range s0 s1 l0 l1) (hslChannel_range s0 s1 l0 l1)
      (hslChannel_range s0 s1 l0 l1)

end

/-- The saturation is computed back from the greatest and the least channel. -/
theorem hsl_saturation {s l M m : ℝ} (s0 : 0 ≤ s)
    (hd : 0 < span s l) (hM : M = l + span s l / 2) (hm : m = l - span s l / 2) :
    (if 1 / 2 < (M + m) / 2 then (M - m) / (2 - M - m) else (M - m) / (M + m)) = s := by
  have e1 : (M + m) / 2 = l := by rw [hM, hm]; ring
  have e2 : M - m = span s l := by rw [hM, hm]; ring
  have e3 : M + m = 2 * l := by rw [hM, hm]; ring
  have e4 : 2 - M - m = 2 * (1 - l) := by rw [hM, hm]; ring
  rw [e1, e2, e3, e4]
  unfold span at hd ⊢
  split
  · rename_i c
    rw [abs_of_nonneg (by linarith)] at hd ⊢
    have : 0 < 1 - l := by
      rcases lt_or_ge 0 (1 - l) with h | h
      · exact h
      · nlinarith
    field_simp; ring
  · rename_i c
    rw [abs_of_nonpos (by linarith)] at hd ⊢
    have : 0 < l := by
      rcases lt_or_ge 0 l with h | h
      · exact h
      · nlinarith
    field_simp; ring

variable [Junk]

/-- A hue is computed back from the channels, but one less than `1 / 32768` away from the greatest
channel is taken for it. -/
theorem sector_back {H M m r g b : ℝ} (H0 : 0 ≤ H) (H6 : H < 6) (hd : 1 / 32768 ≤ M - m)
    (hr : r = Hsl.hue2rgb m M (H / 6 + 1 / 3)) (hg : g = Hsl.hue2rgb m M (H / 6))
    (hb : b = Hsl.hue2rgb m M (H / 6 - 1 / 3)) :
    max r (max g b) = M ∧ min r (min g b) = m ∧
    0 ≤ hslSector M (M - m) r g b ∧ hslSector M (M - m) r g b < 6 ∧
    |hslSector M (M - m) r g b - H| * (M - m) < 1 / 32768 ∧
    ((1 < H ∧ H < 2 → 1 / 32768 ≤ (M - m) * (H - 1)) → (3 < H ∧ H < 4 → 1 / 32768 ≤ (M - m) * (H - 3)) →
      (4 < H ∧ H < 5 → 1 / 32768 ≤ (M - m) * (5 - H)) → hslSector M (M - m) r g b = H) := by
  have d0 : 0 < M - m := by linarith
  have n : M - m ≠ 0 := d0.ne'
  obtain ⟨s1, s2, s3, s4, s5, s6⟩ := @Exact.sectors _ M m H
  have far : ¬ |M - m| < 1 / 32768 := by rw [abs_of_pos d0]; linarith
  have self : |M - M| < 1 / 32768 := by rw [sub_self, abs_zero]; norm_num
  have ok : ∀ x, x = H → 0 ≤ x ∧ x < 6 ∧ |x - H| * (M - m) < 1 / 32768 := by
    rintro x rfl; rw [sub_self, abs_zero, zero_mul]; exact ⟨H0, H6, by norm_num⟩
  have three : ∀ {x y z p q : ℝ}, x ≤ p → y ≤ p → z ≤ p → q ≤ x → q ≤ y → q ≤ z →
      (x = p ∨ y = p ∨ z = p) → (x = q ∨ y = q ∨ z = q) →
      max x (max y z) = p ∧ min x (min y z) = q := by
    intro x y z p q a1 a2 a3 b1 b2 b3 h h'
    constructor
    · refine le_antisymm (max_le a1 (max_le a2 a3)) ?_
      rcases h with h | h | h
      · rw [← h]; exact le_max_left _ _
      · rw [← h]; exact (le_max_left _ _).trans (le_max_right _ _)
      · rw [← h]; exact (le_max_right _ _).trans (le_max_right _ _)
    · refine le_antisymm ?_ (le_min b1 (le_min b2 b3))
      rcases h' with h | h | h
      · rw [← h]; exact min_le_left _ _
      · rw [← h]; exact (min_le_right _ _).trans (min_le_left _ _)
      · rw [← h]; exact (min_le_right _ _).trans (min_le_right _ _)
  rcases lt_or_ge H 1 with c1 | c1
  · obtain ⟨e1, e2, e3⟩ := s1 H0 c1.le
    rw [e1] at hr; rw [e2] at hg; rw [e3] at hb
    rw [hr, hg, hb]
    have p0 := mul_nonneg d0.le H0
    have p1 := mul_le_mul_of_nonneg_left c1.le d0.le
    obtain ⟨t1, t2⟩ := three (x := M) (y := m + (M - m) * H) (z := m) (p := M) (q := m) le_rfl
      (by linarith) (by linarith) (by linarith) (by linarith) le_rfl (.inl rfl) (.inr (.inr rfl))
    have e : hslSector M (M - m) M (m + (M - m) * H) m = H := by
      unfold hslSector
      rw [if_pos self, if_neg (by linarith)]
      field_simp; ring
    exact ⟨t1, t2, (ok _ e).1, (ok _ e).2.1, (ok _ e).2.2, fun _ _ _ => e⟩
  rcases lt_or_ge H 2 with c2 | c2
  · obtain ⟨e1, e2, e3⟩ := s2 c1 c2.le
    rw [e1] at hr; rw [e2] at hg; rw [e3] at hb
    rw [hr, hg, hb]
    have p0 := mul_nonneg d0.le (sub_nonneg.2 c2.le)
    have p1 : (M - m) * (2 - H) ≤ (M - m) * 1 := mul_le_mul_of_nonneg_left (by linarith) d0.le
    obtain ⟨t1, t2⟩ := three (x := m + (M - m) * (2 - H)) (y := M) (z := m) (p := M) (q := m)
      (by linarith) le_rfl (by linarith) (by linarith) (by linarith) le_rfl (.inr (.inl rfl))
      (.inr (.inr rfl))
    have gap : M - (m + (M - m) * (2 - H)) = (M - m) * (H - 1) := by ring
    have gap0 : 0 ≤ (M - m) * (H - 1) := mul_nonneg d0.le (by linarith)
    by_cases cr : (M - m) * (H - 1) < 1 / 32768
    · have e : hslSector M (M - m) (m + (M - m) * (2 - H)) M m = 1 := by
        unfold hslSector
        rw [gap, abs_of_nonneg gap0, if_pos cr, if_neg (by linarith)]
        field_simp; ring
      refine ⟨t1, t2, by rw [e]; norm_num, by rw [e]; norm_num, ?_, ?_⟩
      · rw [e, abs_of_nonpos (by linarith)]; linarith
      · intro g1 _ _
        rcases eq_or_lt_of_le c1 with h | h
        · rw [e, h]
        · have := g1 ⟨h, c2⟩; linarith
    · have e : hslSector M (M - m) (m + (M - m) * (2 - H)) M m = H := by
        unfold hslSector
        rw [gap, abs_of_nonneg gap0, if_neg cr, if_pos self]
        field_simp; ring
      exact ⟨t1, t2, (ok _ e).1, (ok _ e).2.1, (ok _ e).2.2, fun _ _ _ => e⟩
  rcases lt_or_ge H 3 with c3 | c3
  · obtain ⟨e1, e2, e3⟩ := s3 c2 c3.le
    rw [e1] at hr; rw [e2] at hg; rw [e3] at hb
    rw [hr, hg, hb]
    have p0 := mul_nonneg d0.le (sub_nonneg.2 c2)
    have p1 : (M - m) * (H - 2) ≤ (M - m) * 1 := mul_le_mul_of_nonneg_left (by linarith) d0.le
    obtain ⟨t1, t2⟩ := three (x := m) (y := M) (z := m + (M - m) * (H - 2)) (p := M) (q := m)
      (by linarith) le_rfl (by linarith) le_rfl (by linarith) (by linarith) (.inr (.inl rfl)) (.inl rfl)
    have e : hslSector M (M - m) m M (m + (M - m) * (H - 2)) = H := by
      unfold hslSector
      rw [if_neg far, if_pos self]
      field_simp; ring
    exact ⟨t1, t2, (ok _ e).1, (ok _ e).2.1, (ok _ e).2.2, fun _ _ _ => e⟩
  rcases lt_or_ge H 4 with c4 | c4
  · obtain ⟨e1, e2, e3⟩ := s4 c3 c4.le
    rw [e1] at hr; rw [e2] at hg; rw [e3] at hb
    rw [hr, hg, hb]
    have p0 := mul_nonneg d0.le (sub_nonneg.2 c4.le)
    have p1 : (M - m) * (4 - H) ≤ (M - m) * 1 := mul_le_mul_of_nonneg_left (by linarith) d0.le
    obtain ⟨t1, t2⟩ := three (x := m) (y := m + (M - m) * (4 - H)) (z := M) (p := M) (q := m)
      (by linarith) (by linarith) le_rfl le_rfl (by linarith) (by linarith) (.inr (.inr rfl)) (.inl rfl)
    have gap : M - (m + (M - m) * (4 - H)) = (M - m) * (H - 3) := by ring
    have gap0 : 0 ≤ (M - m) * (H - 3) := mul_nonneg d0.le (by linarith)
    by_cases cr : (M - m) * (H - 3) < 1 / 32768
    · have e : hslSector M (M - m) m (m + (M - m) * (4 - H)) M = 3 := by
        unfold hslSector
        rw [if_neg far, gap, abs_of_nonneg gap0, if_pos cr]
        field_simp; ring
      refine ⟨t1, t2, by rw [e]; norm_num, by rw [e]; norm_num, ?_, ?_⟩
      · rw [e, abs_of_nonpos (by linarith)]; linarith
      · intro _ g1 _
        rcases eq_or_lt_of_le c3 with h | h
        · rw [e, h]
        · have := g1 ⟨h, c4⟩; linarith
    · have e : hslSector M (M - m) m (m + (M - m) * (4 - H)) M = H := by
        unfold hslSector
        rw [if_neg far, gap, abs_of_nonneg gap0, if_neg cr]
        field_simp; ring
      exact ⟨t1, t2, (ok _ e).1, (ok _ e).2.1, (ok _ e).2.2, fun _ _ _ => e⟩
  rcases lt_or_ge H 5 with c5 | c5
  · obtain ⟨e1, e2, e3⟩ := s5 c4 c5.le
    rw [e1] at hr; rw [e2] at hg; rw [e3] at hb
    rw [hr, hg, hb]
    have p0 := mul_nonneg d0.le (sub_nonneg.2 c4)
    have p1 : (M - m) * (H - 4) ≤ (M - m) * 1 := mul_le_mul_of_nonneg_left (by linarith) d0.le
    obtain ⟨t1, t2⟩ := three (x := m + (M - m) * (H - 4)) (y := m) (z := M) (p := M) (q := m)
      (by linarith) (by linarith) le_rfl (by linarith) le_rfl (by linarith) (.inr (.inr rfl))
      (.inr (.inl rfl))
    have gap : M - (m + (M - m) * (H - 4)) = (M - m) * (5 - H) := by ring
    have gap0 : 0 ≤ (M - m) * (5 - H) := mul_nonneg d0.le (by linarith)
    by_cases cr : (M - m) * (5 - H) < 1 / 32768
    · have e : hslSector M (M - m) (m + (M - m) * (H - 4)) m M = 5 := by
        unfold hslSector
        rw [gap, abs_of_nonneg gap0, if_pos cr, if_pos (by linarith)]
        field_simp; ring
      refine ⟨t1, t2, by rw [e]; norm_num, by rw [e]; norm_num, ?_, ?_⟩
      · rw [e, abs_of_nonneg (by linarith)]; linarith
      · intro _ _ g1
        rcases eq_or_lt_of_le c4 with h | h
        · subst h; linarith
        · have := g1 ⟨h, c5⟩; linarith
    · have e : hslSector M (M - m) (m + (M - m) * (H - 4)) m M = H := by
        unfold hslSector
        rw [gap, abs_of_nonneg gap0, if_neg cr, if_neg far]
        field_simp; ring
      exact ⟨t1, t2, (ok _ e).1, (ok _ e).2.1, (ok _ e).2.2, fun _ _ _ => e⟩
  · obtain ⟨e1, e2, e3⟩ := s6 c5 H6.le
    rw [e1] at hr; rw [e2] at hg; rw [e3] at hb
    rw [hr, hg, hb]
    have p0 : 0 < (M - m) * (6 - H) := mul_pos d0 (by linarith)
    have p1 : (M - m) * (6 - H) ≤ (M - m) * 1 := mul_le_mul_of_nonneg_left (by linarith) d0.le
    obtain ⟨t1, t2⟩ := three (x := M) (y := m) (z := m + (M - m) * (6 - H)) (p := M) (q := m) le_rfl
      (by linarith) (by linarith) (by linarith) le_rfl (by linarith) (.inl rfl) (.inr (.inl rfl))
    have e : hslSector M (M - m) M m (m + (M - m) * (6 - H)) = H := by
      unfold hslSector
      rw [if_pos self, if_pos (by linarith)]
      field_simp; ring
    exact ⟨t1, t2, (ok _ e).1, (ok _ e).2.1, (ok _ e).2.2, fun _ _ _ => e⟩

/-- From HSL to RGB and back: saturation, lightness and alpha return, and the hue nearly. -/
theorem Exact.hsl_back {h s l a : ℝ} (h0 : 0 ≤ h) (h1 : h < 1) (s0 : 0 ≤ s) (s1 : s ≤ 1)
    (l0 : 0 ≤ l) (l1 : l ≤ 1) (a0 : 0 ≤ a) (a1 : a ≤ 1) (hd : 1 / 32768 ≤ span s l) :
    ∃ h', Rgb.to_hsl (Hsl.to_rgb ⟨h, s, l, a⟩) = ⟨h', s, l, a⟩ ∧ 0 ≤ h' ∧ h' < 1 ∧
      6 * (span s l * |h' - h|) < 1 / 32768 ∧
      ((1 / 6 < h ∧ h < 2 / 6 → 1 / 32768 ≤ 6 * (span s l * (h - 1 / 6))) →
        (3 / 6 < h ∧ h < 4 / 6 → 1 / 32768 ≤ 6 * (span s l * (h - 3 / 6))) →
        (4 / 6 < h ∧ h < 5 / 6 → 1 / 32768 ≤ 6 * (span s l * (5 / 6 - h))) → h' = h) := by
  obtain ⟨d0, m0, M1⟩ := span_range s0 s1 l0 l1
  obtain ⟨M, hM⟩ : ∃ M, M = l + span s l / 2 := ⟨_, rfl⟩
  obtain ⟨m, hm⟩ : ∃ m, m = l - span s l / 2 := ⟨_, rfl⟩
  have hMm : M - m = span s l := by rw [hM, hm]; ring
  have ch : ∀ t, -1 / 3 ≤ t → t ≤ 4 / 3 → hslChannel s l t = Hsl.hue2rgb m M t := by
    intro t t0 t1
    rw [Exact.hue2rgb_turn t0 t1, hMm, hm]; rfl
  obtain ⟨e1, e2, e3, e4, e5, e6⟩ := sector_back (H := 6 * h) (M := M) (m := m)
    (r := hslChannel s l (h + 1 / 3)) (g := hslChannel s l h) (b := hslChannel s l (h - 1 / 3))
    (by linarith) (by linarith) (by rw [hMm]; exact hd)
    (by rw [mul_div_cancel_left₀ _ (by norm_num)]; exact ch _ (by linarith) (by linarith))
    (by rw [mul_div_cancel_left₀ _ (by norm_num)]; exact ch _ (by linarith) (by linarith))
    (by rw [mul_div_cancel_left₀ _ (by norm_num)]; exact ch _ (by linarith) (by linarith))
  rw [Exact.hsl_to_rgb h0 h1.le s0 s1 l0 l1 a0 a1]
  have r1 := hslChannel_range (t := h + 1 / 3) s0 s1 l0 l1
  have r2 := hslChannel_range (t := h) s0 s1 l0 l1
  have r3 := hslChannel_range (t := h - 1 / 3) s0 s1 l0 l1
  rw [Exact.to_hsl_color (M := M) (m := m) ⟨r1.1, r1.2, r2.1, r2.2, r3.1, r3.2, a0, a1⟩ e1.symm e2.symm
    (by rw [hMm]; exact hd), hsl_saturation s0 (by linarith) hM hm]
  simp only
  generalize hslSector M (M - m) (hslChannel s l (h + 1 / 3)) (hslChannel s l h)
    (hslChannel s l (h - 1 / 3)) = H at *
  rw [hMm] at e5 e6
  refine ⟨H / 6, by rw [hM, hm]; congr 1; ring, by linarith, by linarith, ?_, ?_⟩
  · have : |H - 6 * h| = 6 * |H / 6 - h| := by
      rw [show H - 6 * h = 6 * (H / 6 - h) by ring, abs_mul, abs_of_pos (by norm_num : (0 : ℝ) < 6)]
    rw [this] at e5; linarith
  · intro g1 g2 g3
    have := e6 (fun ⟨x, y⟩ => by have := g1 ⟨by linarith, by linarith⟩; linarith)
      (fun ⟨x, y⟩ => by have := g2 ⟨by linarith, by linarith⟩; linarith)
      (fun ⟨x, y⟩ => by have := g3 ⟨by linarith, by linarith⟩; linarith)
    linarith

end D10
