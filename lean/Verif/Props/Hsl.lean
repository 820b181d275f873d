import Verif.Lemmas.Hsl

/-!
# HSL and HSV conversions (C28, C29)

Exact arithmetic (`ℝ`), for all colours with channels in [0, 1]; the statement about the undefined
HSV hue of grays is about the program's own floats.
-/

namespace D10
open Scalar (isNan)

theorem unit_minmax {c : Col ℝ} (h : Spec.Unit c) :
    0 ≤ min c.c0 (min c.c1 c.c2) ∧ max c.c0 (max c.c1 c.c2) ≤ 1 ∧
    min c.c0 (min c.c1 c.c2) ≤ c.c0 ∧ min c.c0 (min c.c1 c.c2) ≤ c.c1 ∧
    min c.c0 (min c.c1 c.c2) ≤ c.c2 ∧ c.c0 ≤ max c.c0 (max c.c1 c.c2) ∧
    c.c1 ≤ max c.c0 (max c.c1 c.c2) ∧ c.c2 ≤ max c.c0 (max c.c1 c.c2) :=
  ⟨le_min h.r0 (le_min h.g0 h.b0), max_le h.r1 (max_le h.g1 h.b1), min_le_left _ _,
    le_trans (min_le_right _ _) (min_le_left _ _), le_trans (min_le_right _ _) (min_le_right _ _),
    le_max_left _ _, le_trans (le_max_left _ _) (le_max_right _ _),
    le_trans (le_max_right _ _) (le_max_right _ _)⟩

section
variable [Junk]

/-! ## C28 -/

/-- C28: an in-range colour converted to HSL and back equals the original. -/
theorem C28_hsl_round_trip (c : Col ℝ) (h : Spec.Unit c) :
    Col.eq (to_rgb .hsl (to_hsl .rgb c)) c = true := by
  show Col.eq (Hsl.to_rgb (Rgb.to_hsl c)) c = true
  obtain ⟨hm0, hM1, m1, m2, m3, M1, M2, M3⟩ := unit_minmax h
  by_cases hd : max c.c0 (max c.c1 c.c2) - min c.c0 (min c.c1 c.c2) < 1 / 32768
  · rw [Exact.to_hsl_gray h hd]
    unfold Hsl.to_rgb
    ex_simp
    rw [if_pos trivial, Exact.col_eq]
    unfold Rgb.new_with_alpha
    simp only
    rw [Exact.clamp01_id (by linarith) (by linarith), Exact.clamp01_id h.a0 h.a1]
    refine ⟨?_, ?_, ?_, by rw [sub_self, abs_zero]; norm_num⟩ <;> rw [abs_le] <;>
      constructor <;> linarith
  · have hd := not_lt.1 hd
    rw [Exact.to_hsl_color h rfl rfl hd, Exact.hsl_pq hm0 hM1 (by linarith)]
    obtain ⟨H, hH, _, _, h1, h2, h3⟩ := Exact.hsl_core (c := c) rfl rfl hd
    rw [hH, h3]
    have e1 : |Hsl.hue2rgb (min c.c0 (min c.c1 c.c2)) (max c.c0 (max c.c1 c.c2)) (H / 6 + 1 / 3)
        - c.c0| ≤ 1 / 32768 := by
      rcases h1 with e | ⟨e, e'⟩
      · rw [e, sub_self, abs_zero]; norm_num
      · rw [e]; exact e'.le
    have r1 : 0 ≤ Hsl.hue2rgb (min c.c0 (min c.c1 c.c2)) (max c.c0 (max c.c1 c.c2)) (H / 6 + 1 / 3)
        ∧ Hsl.hue2rgb (min c.c0 (min c.c1 c.c2)) (max c.c0 (max c.c1 c.c2)) (H / 6 + 1 / 3) ≤ 1 := by
      rcases h1 with e | ⟨e, e'⟩
      · rw [e]; exact ⟨h.r0, h.r1⟩
      · rw [e]; exact ⟨by linarith [h.r0], hM1⟩
    have e2 : |Hsl.hue2rgb (min c.c0 (min c.c1 c.c2)) (max c.c0 (max c.c1 c.c2)) (H / 6)
        - c.c1| ≤ 1 / 32768 := by
      rcases h2 with e | ⟨e, e'⟩
      · rw [e, sub_self, abs_zero]; norm_num
      · rw [e]; exact e'.le
    have r2 : 0 ≤ Hsl.hue2rgb (min c.c0 (min c.c1 c.c2)) (max c.c0 (max c.c1 c.c2)) (H / 6)
        ∧ Hsl.hue2rgb (min c.c0 (min c.c1 c.c2)) (max c.c0 (max c.c1 c.c2)) (H / 6) ≤ 1 := by
      rcases h2 with e | ⟨e, e'⟩
      · rw [e]; exact ⟨h.g0, h.g1⟩
      · rw [e]; exact ⟨by linarith [h.r0], hM1⟩
    rw [Exact.col_eq]
    unfold Rgb.new_with_alpha
    simp only
    rw [Exact.clamp01_id r1.1 r1.2, Exact.clamp01_id r2.1 r2.2, Exact.clamp01_id h.b0 h.b1,
      Exact.clamp01_id h.a0 h.a1]
    exact ⟨e1, e2, by rw [sub_self, abs_zero]; norm_num, by rw [sub_self, abs_zero]; norm_num⟩

/-- C28: the round trip is exact if the colour is not nearly gray and no channel is nearly, but not
quite, the greatest one. -/
theorem C28_hsl_round_trip_exact (c : Col ℝ) (h : Spec.Unit c) (M m : ℝ)
    (hM : M = max c.c0 (max c.c1 c.c2)) (hm : m = min c.c0 (min c.c1 c.c2))
    (hd : 1 / 32768 ≤ M - m)
    (hr : c.c0 = M ∨ 1 / 32768 ≤ M - c.c0) (hg : c.c1 = M ∨ 1 / 32768 ≤ M - c.c1) :
    to_rgb .hsl (to_hsl .rgb c) = c := by
  show Hsl.to_rgb (Rgb.to_hsl c) = c
  obtain ⟨hm0, hM1, m1, m2, m3, M1, M2, M3⟩ := unit_minmax h
  rw [← hM] at hM1 M1 M2 M3
  rw [← hm] at hm0 m1 m2 m3
  rw [Exact.to_hsl_color h hM hm hd, Exact.hsl_pq hm0 hM1 (by linarith)]
  obtain ⟨H, hH, _, _, h1, h2, h3⟩ := Exact.hsl_core (c := c) hM hm hd
  have e1 : Hsl.hue2rgb m M (H / 6 + 1 / 3) = c.c0 := by
    rcases h1 with e | ⟨e, e'⟩
    · exact e
    · rcases hr with e'' | e''
      · rw [e, e'']
      · rw [abs_of_nonneg (by linarith)] at e'; linarith
  have e2 : Hsl.hue2rgb m M (H / 6) = c.c1 := by
    rcases h2 with e | ⟨e, e'⟩
    · exact e
    · rcases hg with e'' | e''
      · rw [e, e'']
      · rw [abs_of_nonneg (by linarith)] at e'; linarith
  rw [hH, h3, e1, e2]
  unfold Rgb.new_with_alpha
  rw [Exact.clamp01_id h.r0 h.r1, Exact.clamp01_id h.g0 h.g1, Exact.clamp01_id h.b0 h.b1,
    Exact.clamp01_id h.a0 h.a1]

/-- C28: hue in [0, 1), saturation and lightness in [0, 1], alpha unchanged; the lightness is the
mean of the greatest and the least channel. -/
theorem C28_hsl_range (c : Col ℝ) (h : Spec.Unit c) :
    0 ≤ (to_hsl .rgb c).c0 ∧ (to_hsl .rgb c).c0 < 1 ∧
    0 ≤ (to_hsl .rgb c).c1 ∧ (to_hsl .rgb c).c1 ≤ 1 ∧
    0 ≤ (to_hsl .rgb c).c2 ∧ (to_hsl .rgb c).c2 ≤ 1 ∧
    (to_hsl .rgb c).c2 = (max c.c0 (max c.c1 c.c2) + min c.c0 (min c.c1 c.c2)) / 2 ∧
    (to_hsl .rgb c).alpha = c.alpha := by
  show 0 ≤ (Rgb.to_hsl c).c0 ∧ (Rgb.to_hsl c).c0 < 1 ∧
    0 ≤ (Rgb.to_hsl c).c1 ∧ (Rgb.to_hsl c).c1 ≤ 1 ∧
    0 ≤ (Rgb.to_hsl c).c2 ∧ (Rgb.to_hsl c).c2 ≤ 1 ∧
    (Rgb.to_hsl c).c2 = _ ∧ (Rgb.to_hsl c).alpha = c.alpha
  obtain ⟨hm0, hM1, m1, m2, m3, M1, M2, M3⟩ := unit_minmax h
  by_cases hd : max c.c0 (max c.c1 c.c2) - min c.c0 (min c.c1 c.c2) < 1 / 32768
  · rw [Exact.to_hsl_gray h hd]
    simp only [le_refl, true_and]
    refine ⟨by norm_num, by norm_num, ?_, ?_, ?_⟩ <;> first | linarith | trivial
  · have hd := not_lt.1 hd
    rw [Exact.to_hsl_color h rfl rfl hd]
    obtain ⟨H, hH, H0, H6, _⟩ := Exact.hsl_core (c := c) rfl rfl hd
    simp only [hH]
    refine ⟨by linarith, by linarith, ?_, ?_, by linarith, by linarith, trivial, trivial⟩
    · split
      · exact div_nonneg (by linarith) (by linarith)
      · exact div_nonneg (by linarith) (by linarith)
    · split
      · rw [div_le_one (by linarith)]; linarith
      · rw [div_le_one (by linarith)]; linarith

/-- Non-vacuity: an orange with half alpha. -/
example : Spec.Unit ⟨1, 1 / 2, 0, 1 / 2⟩ := by constructor <;> norm_num
example (J : Junk) : to_rgb .hsl (to_hsl .rgb (⟨1, 1 / 2, 0, 1 / 2⟩ : Col ℝ)) = ⟨1, 1 / 2, 0, 1 / 2⟩ :=
  C28_hsl_round_trip_exact _ (by constructor <;> norm_num) 1 0 (by norm_num) (by norm_num)
    (by norm_num) (by norm_num) (by norm_num)

/-! ## C29 -/

theorem Exact.asU32_eq {x : ℝ} {n : Nat} (hn : n ≤ 4294967295) (h0 : (n : ℝ) ≤ x) (h1 : x < n + 1) :
    Scalar.asU32 x = n := by
  have hx : ¬ x < 0 := by
    have : (0 : ℝ) ≤ n := Nat.cast_nonneg n
    linarith
  have hf : ⌊x⌋ = (n : Int) := by
    rw [Int.floor_eq_iff]; exact ⟨by exact_mod_cast h0, by exact_mod_cast h1⟩
  unfold Scalar.asU32
  show (max 0 (min 4294967295 (if x < 0 then ⌈x⌉ else ⌊x⌋))).toNat = n
  rw [if_neg hx, hf]
  omega

/-- The hue sector position computed by `to_hsv`, before it is made non-negative. -/
noncomputable def hsvSector (M d r g b : ℝ) : ℝ :=
  if M ≤ r then (g - b) / d else if M ≤ g then 2 + (b - r) / d else 4 + (r - g) / d

theorem Exact.to_hsv_color {c : Col ℝ} (h : Spec.Unit c) {M m : ℝ}
    (hM : M = max c.c0 (max c.c1 c.c2)) (hm : m = min c.c0 (min c.c1 c.c2))
    (hd : m < M) (hE : 1 / 32768 ≤ M) :
    Rgb.to_hsv c = ⟨(if hsvSector M (M - m) c.c0 c.c1 c.c2 < 0 then
        hsvSector M (M - m) c.c0 c.c1 c.c2 + 6 else hsvSector M (M - m) c.c0 c.c1 c.c2) / 6,
      (M - m) / M, M, c.alpha⟩ := by
  have hm0 : 0 ≤ m := by rw [hm]; exact le_min h.r0 (le_min h.g0 h.b0)
  have n1 : M - m ≠ 0 := by linarith
  have n2 : M ≠ 0 := by linarith
  unfold Rgb.to_hsv hsvSector
  simp only [Exact.rgb_max h, Exact.rgb_min h, Exact.EPSILON, ← hM, ← hm, Bool.or_eq_true]
  ex_simp
  rw [if_pos (.inr hE)]
  congr 1
  generalize (if M ≤ c.c0 then _ else _ : ℝ) = x
  by_cases hx : x < 0
  · rw [if_pos (by linarith), if_pos hx]; ring
  · rw [if_neg (by linarith), if_neg hx]; ring

theorem Exact.hsv_back {M m H a : ℝ} (hm0 : 0 ≤ m) (hd : m < M) (H0 : 0 ≤ H) (H6 : H < 6) :
    Hsv.to_rgb (⟨H / 6, (M - m) / M, M, a⟩ : Col ℝ) =
      if H < 1 then Rgb.new_with_alpha M (m + (M - m) * H) m a
      else if H < 2 then Rgb.new_with_alpha (m + (M - m) * (2 - H)) M m a
      else if H < 3 then Rgb.new_with_alpha m M (m + (M - m) * (H - 2)) a
      else if H < 4 then Rgb.new_with_alpha m (m + (M - m) * (4 - H)) M a
      else if H < 5 then Rgb.new_with_alpha (m + (M - m) * (H - 4)) m M a
      else Rgb.new_with_alpha M m (m + (M - m) * (6 - H)) a := by
  have hM : 0 < M := by linarith
  have hs : 0 < (M - m) / M := div_pos (by linarith) hM
  unfold Hsv.to_rgb
  ex_simp
  rw [if_neg (by linarith), if_neg (by linarith)]
  have e1 : H / 6 * 360 / 60 = H := by ring
  have hp : M * (1 - (M - m) / M) = m := by field_simp; ring
  rw [e1, hp]
  simp only [Scalar.ofNat]
  ex_simp
  have hq : ∀ x : ℝ, M * (1 - (M - m) / M * x) = m + (M - m) * (1 - x) := by
    intro x; field_simp; ring
  simp only [hq]
  have sect : ∀ n : Nat, n ≤ 5 → (n : ℝ) ≤ H → H < n + 1 → Scalar.asU32 H = n :=
    fun n hn h0 h1 => Exact.asU32_eq (by omega) h0 h1
  by_cases c1 : H < 1
  · rw [if_pos c1, sect 0 (by omega) (by simpa using H0) (by simpa using c1)]
    simp only; congr 1; push_cast; ring
  rw [if_neg c1]
  by_cases c2 : H < 2
  · rw [if_pos c2, sect 1 (by omega) (by push_cast; linarith) (by push_cast; linarith)]
    simp only; congr 1; push_cast; ring
  rw [if_neg c2]
  by_cases c3 : H < 3
  · rw [if_pos c3, sect 2 (by omega) (by push_cast; linarith) (by push_cast; linarith)]
    simp only; congr 1; push_cast; ring
  rw [if_neg c3]
  by_cases c4 : H < 4
  · rw [if_pos c4, sect 3 (by omega) (by push_cast; linarith) (by push_cast; linarith)]
    simp only; congr 1; push_cast; ring
  rw [if_neg c4]
  by_cases c5 : H < 5
  · rw [if_pos c5, sect 4 (by omega) (by push_cast; linarith) (by push_cast; linarith)]
    simp only; congr 1; push_cast; ring
  rw [if_neg c5, sect 5 (by omega) (by push_cast; linarith) (by push_cast; linarith)]
  simp only; congr 1; push_cast; ring

/-- C29: an in-range colour that is neither gray nor almost black comes back from HSV exactly; its
hue lies in [0, 1), its saturation in [0, 1] and its value is the greatest channel. -/
theorem C29_hsv_round_trip_exact (c : Col ℝ) (h : Spec.Unit c) (M m : ℝ)
    (hM : M = max c.c0 (max c.c1 c.c2)) (hm : m = min c.c0 (min c.c1 c.c2))
    (hd : m < M) (hE : 1 / 32768 ≤ M) :
    to_rgb .hsv (to_hsv .rgb c) = c ∧
    0 ≤ (to_hsv .rgb c).c0 ∧ (to_hsv .rgb c).c0 < 1 ∧
    0 ≤ (to_hsv .rgb c).c1 ∧ (to_hsv .rgb c).c1 ≤ 1 ∧ (to_hsv .rgb c).c2 = M ∧
    (to_hsv .rgb c).alpha = c.alpha := by
  show Hsv.to_rgb (Rgb.to_hsv c) = c ∧ 0 ≤ (Rgb.to_hsv c).c0 ∧ (Rgb.to_hsv c).c0 < 1 ∧
    0 ≤ (Rgb.to_hsv c).c1 ∧ (Rgb.to_hsv c).c1 ≤ 1 ∧ (Rgb.to_hsv c).c2 = M ∧
    (Rgb.to_hsv c).alpha = c.alpha
  obtain ⟨hm0, hM1, hr', hg', hb', hr, hg, hb⟩ := unit_minmax h
  rw [← hM] at hM1 hr hg hb
  rw [← hm] at hm0 hr' hg' hb'
  rw [Exact.to_hsv_color h hM hm hd hE]
  have hMx : M = c.c0 ∨ M = c.c1 ∨ M = c.c2 := by
    rcases max_choice c.c0 (max c.c1 c.c2) with h | h
    · left; rw [hM, h]
    · rcases max_choice c.c1 c.c2 with h' | h'
      · right; left; rw [hM, h, h']
      · right; right; rw [hM, h, h']
  have hmx : m = c.c0 ∨ m = c.c1 ∨ m = c.c2 := by
    rcases min_choice c.c0 (min c.c1 c.c2) with h | h
    · left; rw [hm, h]
    · rcases min_choice c.c1 c.c2 with h' | h'
      · right; left; rw [hm, h, h']
      · right; right; rw [hm, h, h']
  have hd0 : 0 < M - m := by linarith
  have key : ∀ x : ℝ, (M - m) * (x / (M - m)) = x := fun x => by field_simp
  have le1 : ∀ x : ℝ, x ≤ M - m → x / (M - m) ≤ 1 := fun x h => (div_le_one hd0).2 h
  have ge0 : ∀ x : ℝ, 0 ≤ x → 0 ≤ x / (M - m) := fun x h => div_nonneg h hd0.le
  have gt0 : ∀ x : ℝ, 0 < x → 0 < x / (M - m) := fun x h => div_pos h hd0
  have hneg : ∀ x y : ℝ, (x - y) / (M - m) = -((y - x) / (M - m)) := fun x y => by
    rw [← neg_div, neg_sub]
  have fin : ∀ r g b : ℝ, r = c.c0 → g = c.c1 → b = c.c2 →
      Rgb.new_with_alpha r g b c.alpha = c := by
    intro r g b e1 e2 e3
    rw [e1, e2, e3]
    unfold Rgb.new_with_alpha
    rw [Exact.clamp01_id h.r0 h.r1, Exact.clamp01_id h.g0 h.g1, Exact.clamp01_id h.b0 h.b1,
      Exact.clamp01_id h.a0 h.a1]
  suffices hs : ∃ H, (if hsvSector M (M - m) c.c0 c.c1 c.c2 < 0 then
        hsvSector M (M - m) c.c0 c.c1 c.c2 + 6 else hsvSector M (M - m) c.c0 c.c1 c.c2) = H ∧
      0 ≤ H ∧ H < 6 ∧ Hsv.to_rgb (⟨H / 6, (M - m) / M, M, c.alpha⟩ : Col ℝ) = c by
    obtain ⟨H, hH, H0, H6, hback⟩ := hs
    rw [hH]
    refine ⟨hback, ?_, ?_, ?_, ?_, rfl, rfl⟩
    · show 0 ≤ H / 6; linarith
    · show H / 6 < 1; linarith
    · exact div_nonneg (by linarith) (by linarith)
    · show (M - m) / M ≤ 1; rw [div_le_one (by linarith)]; linarith
  refine ⟨_, rfl, ?_⟩
  unfold hsvSector
  by_cases cr : M ≤ c.c0
  · rw [if_pos cr]
    by_cases cg : c.c1 < c.c2
    · have hmg : m = c.c1 := by rcases hmx with h | h | h <;> linarith
      have x1 := le1 (c.c2 - c.c1) (by linarith)
      have x0 := gt0 (c.c2 - c.c1) (by linarith)
      rw [hneg c.c1 c.c2, if_pos (by linarith)]
      refine ⟨by linarith, by linarith, ?_⟩
      rw [Exact.hsv_back hm0 hd (by linarith) (by linarith), if_neg (by linarith),
        if_neg (by linarith), if_neg (by linarith), if_neg (by linarith), if_neg (by linarith)]
      refine fin _ _ _ (by linarith) hmg ?_
      rw [show 6 - (-((c.c2 - c.c1) / (M - m)) + 6) = (c.c2 - c.c1) / (M - m) by ring, key]
      linarith
    · have hmb : m = c.c2 := by rcases hmx with h | h | h <;> linarith
      have x1 := le1 (c.c1 - c.c2) (by linarith)
      have x0 := ge0 (c.c1 - c.c2) (by linarith)
      rw [if_neg (by linarith)]
      refine ⟨by linarith, by linarith, ?_⟩
      rw [Exact.hsv_back hm0 hd (by linarith) (by linarith)]
      by_cases c1 : (c.c1 - c.c2) / (M - m) < 1
      · rw [if_pos c1]
        refine fin _ _ _ (by linarith) ?_ hmb
        rw [key]; linarith
      · have e1 : (c.c1 - c.c2) / (M - m) = 1 := by linarith
        have e2 := key (c.c1 - c.c2)
        rw [if_neg c1, if_pos (by linarith)]
        rw [e1] at e2 ⊢
        exact fin _ _ _ (by linarith) (by linarith) hmb
  · rw [if_neg cr]
    by_cases cg : M ≤ c.c1
    · rw [if_pos cg]
      by_cases cb : c.c2 < c.c0
      · have hmb : m = c.c2 := by rcases hmx with h | h | h <;> linarith
        have x1 := le1 (c.c0 - c.c2) (by linarith)
        have x0 := gt0 (c.c0 - c.c2) (by linarith)
        rw [hneg c.c2 c.c0, if_neg (by linarith)]
        refine ⟨by linarith, by linarith, ?_⟩
        rw [Exact.hsv_back hm0 hd (by linarith) (by linarith)]
        by_cases c1 : (c.c0 - c.c2) / (M - m) = 1
        · exfalso
          have e2 := key (c.c0 - c.c2)
          rw [c1] at e2; linarith
        · have : (c.c0 - c.c2) / (M - m) < 1 := lt_of_le_of_ne x1 c1
          rw [if_neg (by linarith), if_pos (by linarith)]
          refine fin _ _ _ ?_ (by linarith) hmb
          rw [show 2 - (2 + -((c.c0 - c.c2) / (M - m))) = (c.c0 - c.c2) / (M - m) by ring, key]
          linarith
      · have hmr : m = c.c0 := by rcases hmx with h | h | h <;> linarith
        have x1 := le1 (c.c2 - c.c0) (by linarith)
        have x0 := ge0 (c.c2 - c.c0) (by linarith)
        rw [if_neg (by linarith)]
        refine ⟨by linarith, by linarith, ?_⟩
        rw [Exact.hsv_back hm0 hd (by linarith) (by linarith), if_neg (by linarith),
          if_neg (by linarith)]
        by_cases c1 : 2 + (c.c2 - c.c0) / (M - m) < 3
        · rw [if_pos c1]
          refine fin _ _ _ hmr (by linarith) ?_
          rw [add_sub_cancel_left, key]; linarith
        · have e1 : (c.c2 - c.c0) / (M - m) = 1 := by linarith
          have e2 := key (c.c2 - c.c0)
          rw [if_neg c1, if_pos (by linarith)]
          rw [e1] at e2 ⊢
          refine fin _ _ _ hmr (by linarith) (by linarith)
    · rw [if_neg cg]
      have hMb : M = c.c2 := by rcases hMx with h | h | h <;> linarith
      by_cases cb : c.c0 < c.c1
      · have hmr : m = c.c0 := by rcases hmx with h | h | h <;> linarith
        have x1 := le1 (c.c1 - c.c0) (by linarith)
        have x0 := gt0 (c.c1 - c.c0) (by linarith)
        rw [hneg c.c0 c.c1, if_neg (by linarith)]
        refine ⟨by linarith, by linarith, ?_⟩
        rw [Exact.hsv_back hm0 hd (by linarith) (by linarith), if_neg (by linarith),
          if_neg (by linarith), if_neg (by linarith), if_pos (by linarith)]
        refine fin _ _ _ hmr ?_ hMb
        rw [show 4 - (4 + -((c.c1 - c.c0) / (M - m))) = (c.c1 - c.c0) / (M - m) by ring, key]
        linarith
      · have hmg : m = c.c1 := by rcases hmx with h | h | h <;> linarith
        have x1 := le1 (c.c0 - c.c1) (by linarith)
        have x0 := ge0 (c.c0 - c.c1) (by linarith)
        rw [if_neg (by linarith)]
        refine ⟨by linarith, by linarith, ?_⟩
        rw [Exact.hsv_back hm0 hd (by linarith) (by linarith), if_neg (by linarith),
          if_neg (by linarith), if_neg (by linarith), if_neg (by linarith)]
        by_cases c1 : 4 + (c.c0 - c.c1) / (M - m) < 5
        · rw [if_pos c1]
          refine fin _ _ _ ?_ hmg hMb
          rw [add_sub_cancel_left, key]; linarith
        · have e1 : (c.c0 - c.c1) / (M - m) = 1 := by linarith
          have e2 := key (c.c0 - c.c1)
          rw [if_neg c1]
          rw [e1] at e2 ⊢
          exact fin _ _ _ (by linarith) hmg (by linarith)

/-- C29: every in-range colour that is not an exact gray (or is almost black) equals (`==`) the
result of the round trip. -/
theorem C29_hsv_round_trip (c : Col ℝ) (h : Spec.Unit c) (hgray : ¬ (c.c0 = c.c1 ∧ c.c1 = c.c2)) :
    Col.eq (to_rgb .hsv (to_hsv .rgb c)) c = true := by
  obtain ⟨hm0, hM1, hr', hg', hb', hr, hg, hb⟩ := unit_minmax h
  have hd : min c.c0 (min c.c1 c.c2) < max c.c0 (max c.c1 c.c2) := by
    by_contra hc
    exact hgray ⟨by linarith, by linarith⟩
  by_cases hE : 1 / 32768 ≤ max c.c0 (max c.c1 c.c2)
  · exact Exact.col_eq_of_eq (C29_hsv_round_trip_exact c h _ _ rfl rfl hd hE).1
  · have hE := not_le.1 hE
    show Col.eq (Hsv.to_rgb (Rgb.to_hsv c)) c = true
    have e : Rgb.to_hsv c = ⟨0, 0, max c.c0 (max c.c1 c.c2), c.alpha⟩ := by
      unfold Rgb.to_hsv
      simp only [Exact.rgb_max h, Exact.rgb_min h, Exact.EPSILON, Bool.or_eq_true]
      ex_simp
      rw [if_neg (by intro h; rcases h with h | h <;> linarith)]
      norm_num
    rw [e]
    unfold Hsv.to_rgb
    ex_simp
    rw [if_pos (le_refl _), Exact.col_eq]
    simp only
    refine ⟨?_, ?_, ?_, by rw [sub_self, abs_zero]; norm_num⟩ <;> rw [abs_le] <;>
      constructor <;> linarith

example : ∃ c : Col ℝ, Spec.Unit c ∧ ¬ (c.c0 = c.c1 ∧ c.c1 = c.c2) :=
  ⟨⟨1 / 5, 1 / 2, 3 / 4, 1 / 2⟩, by constructor <;> norm_num, by norm_num⟩

end

/-- C29, the program's own floats: the HSV hue of every gray between EPSILON and 1 is NaN, although
converting back still gives the same gray, bit for bit. -/
theorem C29_gray_hue_is_nan [Libm b32] (v a : F32) (hv : v.fin = true)
    (h0 : 1 / 32768 ≤ v.val) (h1 : v.val ≤ 1) :
    (to_hsv .rgb (⟨v, v, v, a⟩ : Col F32)).c0 = FP.nan ∧
    to_rgb .hsv (to_hsv .rgb (⟨v, v, v, a⟩ : Col F32)) = ⟨v, v, v, a⟩ := by
  have l0 : (lit 0 : F32) = .zero false := FP.ofRat_zero false
  have l1 : (lit 1 : F32).fin = true ∧ (lit 1 : F32).val = 1 := by
    have h := FP.int_finite (f := b32) 1 (by decide)
    simp only [Int.cast_one] at h
    exact FP.ofRat_rep h.1 h.2
  have hvpos : v.val ≠ 0 := by linarith
  have nv : Scalar.isNan v = false := FP.isNan_fin hv
  have n0 : Scalar.isNan (lit 0 : F32) = false := LawfulScalar.lit_isNan 0
  have n1 : Scalar.isNan (lit 1 : F32) = false := LawfulScalar.lit_isNan 1
  have lt0 : ((lit 0 : F32) <. v) = true := by
    show FP.lt (lit 0) v = true
    rw [FP.lt_fin (by rw [l0]; rfl) hv, l0]
    show decide ((0 : ℚ) < v.val) = true
    rw [decide_eq_true_iff]; linarith
  have ltv : (v <. v) = false := LawfulScalar.lt_irrefl v
  have hmax : Rgb.max (⟨v, v, v, a⟩ : Col F32) = v := by
    unfold Rgb.max
    simp only [List.foldl_cons, List.foldl_nil, Scalar.max, nv, n0, lt0]
    simp
  have hmin : Rgb.min (⟨v, v, v, a⟩ : Col F32) = v := by
    have : Scalar.min (lit 1 : F32) v = v := by
      simp only [Scalar.min, nv, n1]
      by_cases hlt : (v <. (lit 1 : F32)) = true
      · simp [hlt]
      · have hlt' : ¬ (FP.lt v (lit 1 : F32) = true) := hlt
        rw [FP.lt_fin hv l1.1, l1.2, decide_eq_true_iff, not_lt] at hlt'
        have : (lit 1 : F32) = v :=
          FP.ext_val l1.1 hv (by rw [l1.2]; linarith) (by rw [l1.2]; norm_num)
        simp [this]
    unfold Rgb.min
    simp only [List.foldl_cons, List.foldl_nil, this]
    simp [Scalar.min, nv, ltv]
  have hE : ((EPSILON : F32) <=. v) = true := by
    have e : (EPSILON : F32).fin = true ∧ (EPSILON : F32).val = 1 / 32768 := by
      unfold EPSILON
      show (FP.div (FP.ofRat b32 false 1) (FP.ofRat b32 false 32768)).fin = true ∧
        (FP.div (FP.ofRat b32 false 1) (FP.ofRat b32 false 32768)).val = 1 / 32768
      decide +kernel
    rw [FP.le_fin e.1 hv, e.2]; simpa using h0
  obtain ⟨s, hs⟩ := FP.sub_self_fin hv
  have hs : v -. v = FP.zero s := hs
  have hnan : FP.zero s /. FP.zero s = (FP.nan : F32) := rfl
  obtain ⟨t, ht⟩ := FP.zero_div_fin (f := b32) (s := s) hv hvpos
  have ht : FP.zero s /. v = FP.zero t := ht
  have hle : (v <=. v) = true := by rw [FP.le_fin hv hv]; simp
  have hnlt : ((FP.nan : F32) <. lit 0) = false := rfl
  have mulnan : ∀ x : F32, FP.nan *. x = FP.nan := fun x => by cases x <;> rfl
  have divnan : ∀ x : F32, FP.nan /. x = FP.nan := fun x => by cases x <;> rfl
  have e : to_hsv .rgb (⟨v, v, v, a⟩ : Col F32) = ⟨FP.nan, .zero t, v, a⟩ := by
    show Rgb.to_hsv (⟨v, v, v, a⟩ : Col F32) = _
    unfold Rgb.to_hsv
    simp only [hmax, hmin, hs, hE, Bool.or_true, if_true, hle, hnan, mulnan, hnlt, divnan, ht,
      Bool.false_eq_true, if_false]
  rw [e]
  refine ⟨rfl, ?_⟩
  show Hsv.to_rgb _ = _
  unfold Hsv.to_rgb
  have : ((FP.zero t : F32) <=. lit 0) = true := by
    rw [l0]; rfl
  simp only [this, if_true]

/-- Hypotheses of `C29_gray_hue_is_nan` hold, for example, for white. -/
example : (FP.ofRat b32 false 1).fin = true ∧ 1 / 32768 ≤ (FP.ofRat b32 false 1).val ∧
    (FP.ofRat b32 false 1).val ≤ 1 := by decide +kernel

end D10
