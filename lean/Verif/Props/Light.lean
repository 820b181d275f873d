import Verif.SpecLight
import Verif.Props.Fade

/-!
# C137: changing the lightness, adding saturation
-/

namespace D10
open Spec

theorem room_abs (m : ℝ) : room m = 1 - |2 * m - 1| := by
  unfold room
  rcases le_total m (1 - m) with h | h
  · rw [min_eq_left h, abs_of_nonpos (by linarith)]; ring
  · rw [min_eq_right h, abs_of_nonneg (by linarith)]; ring

theorem span_room (s l : ℝ) : span s l = s * room l := by rw [room_abs]; rfl

section
variable [Junk]

/-- The hue, saturation and lightness of a colour that is not gray. -/
theorem saturation_room {c : Col ℝ} (h : Spec.Unit c) (hd : 1 / 32768 ≤ spread c) :
    0 < room (midpoint c) ∧ spread c ≤ room (midpoint c) ∧ (to_hsl .rgb c).c1 = spread c / room (midpoint c) := by
  obtain ⟨hm0, hM1, -⟩ := unit_minmax h
  have e : (to_hsl .rgb c).c1 = _ := congrArg Col.c1 (Exact.to_hsl_color h rfl rfl hd)
  simp only at e
  rw [e]
  unfold spread at hd
  unfold spread room Spec.midpoint
  generalize max c.c0 (max c.c1 c.c2) = M at *
  generalize min c.c0 (min c.c1 c.c2) = m at *
  have hd' : (1 : ℝ) / 32768 > 0 := by norm_num
  split
  · rename_i q
    rw [min_eq_right (by linarith)]
    refine ⟨by linarith, by linarith, ?_⟩
    congr 1; ring
  · rename_i q
    rw [min_eq_left (by linarith)]
    refine ⟨by linarith, by linarith, ?_⟩
    congr 1; ring

omit [Junk] in
theorem channels_mid {c : Col ℝ} : |c.c0 - midpoint c| ≤ spread c / 2 ∧ |c.c1 - midpoint c| ≤ spread c / 2 ∧
    |c.c2 - midpoint c| ≤ spread c / 2 := by
  have h1 : c.c0 ≤ max c.c0 (max c.c1 c.c2) := le_max_left _ _
  have h2 : c.c1 ≤ max c.c0 (max c.c1 c.c2) := (le_max_left _ _).trans (le_max_right _ _)
  have h3 : c.c2 ≤ max c.c0 (max c.c1 c.c2) := (le_max_right _ _).trans (le_max_right _ _)
  have g1 : min c.c0 (min c.c1 c.c2) ≤ c.c0 := min_le_left _ _
  have g2 : min c.c0 (min c.c1 c.c2) ≤ c.c1 := (min_le_right _ _).trans (min_le_left _ _)
  have g3 : min c.c0 (min c.c1 c.c2) ≤ c.c2 := (min_le_right _ _).trans (min_le_right _ _)
  unfold spread Spec.midpoint
  refine ⟨?_, ?_, ?_⟩ <;> rw [abs_le] <;> constructor <;> linarith

theorem lightness_exact (c : Col ℝ) (h : Spec.Unit c) (k : ℝ) : Rgb.with_lightness c k =
    ⟨hslChannel (to_hsl .rgb c).c1 (limit (k * midpoint c)) ((to_hsl .rgb c).c0 + 1 / 3),
      hslChannel (to_hsl .rgb c).c1 (limit (k * midpoint c)) ((to_hsl .rgb c).c0),
      hslChannel (to_hsl .rgb c).c1 (limit (k * midpoint c)) ((to_hsl .rgb c).c0 - 1 / 3), c.alpha⟩ := by
  obtain ⟨h0, h1, s0, s1, l0, l1, lm, ea⟩ := C28_hsl_range c h
  obtain ⟨z0, z1⟩ := limit_unit (k * midpoint c)
  rw [(C83_hsl c k 1 one_pos).2.2.2]
  unfold viaHsl
  simp only
  rw [show (to_hsl .rgb c).c2 = midpoint c from lm]
  exact Exact.hsl_to_rgb h0 h1.le s0 s1 z0 z1 h.a0 h.a1

/-- **Changing the lightness.** The middle between the greatest and the least channel is multiplied by `k`, limited to
[0, 1], and the distances of the channels from it change like the room between black and white. The error is 1/32768 times the factor
for the distances. -/
theorem C137_lightness (c : Col ℝ) (h : Spec.Unit c) (k : ℝ) :
    Spec.Apart (room (limit (k * midpoint c)) / room (midpoint c) / 32768) (Rgb.with_lightness c k) (relight k c) := by
  obtain ⟨h0, h1, s0, s1, l0, l1, lm, ea⟩ := C28_hsl_range c h
  obtain ⟨z0, z1⟩ := limit_unit (k * midpoint c)
  have lm' : (to_hsl .rgb c).c2 = midpoint c := lm
  rw [lightness_exact c h k]
  have n := C28_hsl_round_trip c h
  rw [Exact.col_eq] at n
  have e' : to_rgb .hsl (to_hsl .rgb c) = Hsl.to_rgb ⟨(to_hsl .rgb c).c0, (to_hsl .rgb c).c1, (to_hsl .rgb c).c2, c.alpha⟩ := by
    rw [← ea]; rfl
  rw [e', Exact.hsl_to_rgb h0 h1.le s0 s1 l0 l1 h.a0 h.a1, lm'] at n
  rw [lm'] at l0 l1
  have rm : ∀ {m : ℝ}, 0 ≤ m → m ≤ 1 → 0 ≤ room m := by
    intro m a b
    unfold room
    have := le_min a (by linarith : 0 ≤ 1 - m)
    linarith
  have r0 := rm l0 l1
  have r0' := rm z0 z1
  rcases r0.eq_or_lt with hr | hr
  · have sp : spread c < 1 / 32768 := by
      by_contra hc
      have := (saturation_room h (not_lt.1 hc)).1
      linarith
    have sg : (to_hsl .rgb c).c1 = 0 := by
      show (Rgb.to_hsl c).c1 = 0
      rw [Exact.to_hsl_gray h sp]
    rw [← hr, div_zero, zero_div]
    unfold relight
    rw [← hr, div_zero, sg]
    unfold hslChannel span eachChannel
    norm_num [Spec.Apart]
  · have go : ∀ {t v : ℝ}, |hslChannel (to_hsl .rgb c).c1 (midpoint c) t - v| ≤ 1 / 32768 →
        |hslChannel (to_hsl .rgb c).c1 (limit (k * midpoint c)) t -
          (limit (k * midpoint c) + room (limit (k * midpoint c)) / room (midpoint c) * (v - midpoint c))| ≤
        room (limit (k * midpoint c)) / room (midpoint c) / 32768 := by
      intro t v hv
      have q0 : 0 ≤ room (limit (k * midpoint c)) / room (midpoint c) := div_nonneg r0' r0
      have : hslChannel (to_hsl .rgb c).c1 (limit (k * midpoint c)) t -
          (limit (k * midpoint c) + room (limit (k * midpoint c)) / room (midpoint c) * (v - midpoint c)) =
          room (limit (k * midpoint c)) / room (midpoint c) * (hslChannel (to_hsl .rgb c).c1 (midpoint c) t - v) := by
        unfold hslChannel
        rw [span_room, span_room]
        field_simp
        ring
      rw [this, abs_mul, abs_of_nonneg q0]
      have := mul_le_mul_of_nonneg_left hv q0
      linarith
    exact ⟨go n.1, go n.2.1, go n.2.2.1, rfl⟩

/-- **Darkening dark colours** multiplies their channels. -/
theorem C137_darken (c : Col ℝ) (h : Spec.Unit c) (hm : midpoint c ≤ 1 / 2) (k : ℝ) (k0 : 0 ≤ k) (k1 : k ≤ 1) :
    Spec.Apart (k / 32768) (Rgb.with_lightness c k) (eachChannel (k * ·) c) := by
  obtain ⟨-, -, -, -, l0, l1, lm, -⟩ := C28_hsl_range c h
  have lm' : (to_hsl .rgb c).c2 = midpoint c := lm
  rw [lm'] at l0 l1
  have a := C137_lightness c h k
  have z : limit (k * midpoint c) = k * midpoint c := by
    unfold limit
    rw [min_eq_right (by nlinarith), max_eq_right (mul_nonneg k0 l0)]
  have r1 : room (midpoint c) = 2 * midpoint c := by unfold room; rw [min_eq_left (by linarith)]
  have r2 : room (k * midpoint c) = 2 * (k * midpoint c) := by unfold room; rw [min_eq_left (by nlinarith)]
  unfold relight at a
  rw [z, r1, r2] at a
  rcases l0.eq_or_lt with hz | hz
  · rw [← hz] at a
    norm_num at a
    obtain ⟨hm0, hM1, m1, m2, m3, M1, M2, M3⟩ := unit_minmax h
    have hz' : midpoint c = 0 := hz.symm
    unfold Spec.midpoint at hz'
    have e0 : c.c0 = 0 := le_antisymm (by linarith) h.r0
    have e1 : c.c1 = 0 := le_antisymm (by linarith) h.g0
    have e2 : c.c2 = 0 := le_antisymm (by linarith) h.b0
    have hk : 0 ≤ k / 32768 := by positivity
    obtain ⟨a0, a1, a2, a3⟩ := a
    unfold eachChannel at *
    refine ⟨?_, ?_, ?_, a3⟩
    · show |_ - k * c.c0| ≤ _
      rw [e0, mul_zero]; exact a0.trans hk
    · show |_ - k * c.c1| ≤ _
      rw [e1, mul_zero]; exact a1.trans hk
    · show |_ - k * c.c2| ≤ _
      rw [e2, mul_zero]; exact a2.trans hk
  · have q : 2 * (k * midpoint c) / (2 * midpoint c) = k := by field_simp
    rw [q] at a
    have : (fun v => k * midpoint c + k * (v - midpoint c)) = (k * ·) := by funext v; ring
    rwa [this] at a

/-- **Lightening bright colours** multiplies what they lack to white. -/
theorem C137_lighten (c : Col ℝ) (h : Spec.Unit c) (hm : 1 / 2 ≤ midpoint c) (hm1 : midpoint c < 1) (k : ℝ) (k1 : 1 ≤ k)
    (hk : k * midpoint c ≤ 1) :
    Spec.Apart ((1 - k * midpoint c) / (1 - midpoint c) / 32768) (Rgb.with_lightness c k)
      (eachChannel (fun v => 1 - (1 - k * midpoint c) / (1 - midpoint c) * (1 - v)) c) := by
  have a := C137_lightness c h k
  have g : midpoint c ≤ k * midpoint c := le_mul_of_one_le_left (by linarith) k1
  have z : limit (k * midpoint c) = k * midpoint c := by
    unfold limit
    rw [min_eq_right hk, max_eq_right (by linarith)]
  have r1 : room (midpoint c) = 2 * (1 - midpoint c) := by unfold room; rw [min_eq_right (by linarith)]
  have r2 : room (k * midpoint c) = 2 * (1 - k * midpoint c) := by unfold room; rw [min_eq_right (by linarith)]
  unfold relight at a
  rw [z, r1, r2, mul_div_mul_left _ _ two_ne_zero] at a
  have : (fun v => k * midpoint c + (1 - k * midpoint c) / (1 - midpoint c) * (v - midpoint c)) =
      fun v => 1 - (1 - k * midpoint c) / (1 - midpoint c) * (1 - v) := by
    funext v
    have : 1 - midpoint c ≠ 0 := by linarith
    field_simp
    ring
  rwa [this] at a

/-- **The formula has no limit at white.** White becomes gray when it is darkened, but a colour whose blue is only
`ε` lower, even by the smallest `ε` the program can tell, becomes a pure yellow without any blue. -/
theorem C137_near_white (ε a k : ℝ) (e0 : 1 / 32768 ≤ ε) (e1 : ε ≤ 1) (a0 : 0 ≤ a) (a1 : a ≤ 1) (k0 : 0 ≤ k) (k1 : k ≤ 1 / 2) :
    Rgb.with_lightness ⟨1, 1, 1, a⟩ k = plainGray k a ∧
    Rgb.with_lightness ⟨1, 1, 1 - ε, a⟩ k = ⟨k * (2 - ε), k * (2 - ε), 0, a⟩ := by
  have t6 : (1 : ℝ) / 32768 > 0 := by norm_num
  constructor
  · have h : Spec.Unit (⟨1, 1, 1, a⟩ : Col ℝ) := ⟨by norm_num, by norm_num, by norm_num, by norm_num, by norm_num, by norm_num, a0, a1⟩
    have sg : (to_hsl .rgb (⟨1, 1, 1, a⟩ : Col ℝ)).c1 = 0 := by
      show (Rgb.to_hsl (⟨1, 1, 1, a⟩ : Col ℝ)).c1 = 0
      rw [Exact.to_hsl_gray h (by norm_num)]
    rw [lightness_exact _ h, sg]
    have : midpoint (⟨1, 1, 1, a⟩ : Col ℝ) = 1 := by norm_num [Spec.midpoint]
    rw [this]
    unfold hslChannel span limit plainGray
    rw [mul_one, min_eq_right (by linarith), max_eq_right k0]
    norm_num
  · have h : Spec.Unit (⟨1, 1, 1 - ε, a⟩ : Col ℝ) := ⟨by norm_num, by norm_num, by norm_num, by norm_num, by linarith, by linarith, a0, a1⟩
    have mx : max (1 : ℝ) (max 1 (1 - ε)) = 1 := by rw [max_eq_left (by linarith : 1 - ε ≤ 1), max_self]
    have mn : min (1 : ℝ) (min 1 (1 - ε)) = 1 - ε := by
      rw [min_eq_right (by linarith : 1 - ε ≤ 1), min_eq_right (by linarith : 1 - ε ≤ 1)]
    have mid : midpoint (⟨1, 1, 1 - ε, a⟩ : Col ℝ) = (2 - ε) / 2 := by unfold Spec.midpoint; simp only [mx, mn]; ring
    have sp : spread (⟨1, 1, 1 - ε, a⟩ : Col ℝ) = ε := by unfold spread; simp only [mx, mn]; ring
    obtain ⟨q1, q2, q3⟩ := saturation_room h (by rw [sp]; exact e0)
    have rm : room ((2 - ε) / 2) = ε := by unfold room; rw [min_eq_right (by linarith)]; ring
    rw [mid, sp, rm, div_self (by linarith)] at q3
    have hue : (to_hsl .rgb (⟨1, 1, 1 - ε, a⟩ : Col ℝ)).c0 = 1 / 6 := by
      have e : (to_hsl .rgb (⟨1, 1, 1 - ε, a⟩ : Col ℝ)).c0 = _ :=
        congrArg Col.c0 (Exact.to_hsl_color h mx.symm mn.symm (by linarith))
      rw [e]
      unfold hslSector
      have n0 : ε ≠ 0 := by linarith
      simp only [sub_self, abs_zero, sub_sub_cancel]
      rw [if_pos t6, if_neg (by linarith), div_self n0]
      norm_num
    rw [lightness_exact _ h, q3, hue, mid]
    have lim : limit (k * ((2 - ε) / 2)) = k * ((2 - ε) / 2) := by
      unfold limit
      rw [min_eq_right (by nlinarith), max_eq_right (mul_nonneg k0 (by linarith))]
    rw [lim]
    have sp2 : span 1 (k * ((2 - ε) / 2)) = k * (2 - ε) := by
      rw [span_room]; unfold room; rw [min_eq_left (by nlinarith)]; ring
    unfold hslChannel
    rw [sp2]
    have w : ∀ {t : ℝ}, 0 ≤ t → t < 1 → turn t = trap t := fun a b => by unfold turn; rw [Int.fract_eq_self.2 ⟨a, b⟩]
    have w1 : turn (1 / 6 + 1 / 3) = 1 := by rw [w (by norm_num) (by norm_num)]; norm_num [trap]
    have w2 : turn (1 / 6) = 1 := by rw [w (by norm_num) (by norm_num)]; norm_num [trap]
    have w3 : turn (1 / 6 - 1 / 3) = 0 := by
      have : Int.fract ((1 : ℝ) / 6 - 1 / 3) = 5 / 6 := by
        rw [Int.fract_eq_iff]
        exact ⟨by norm_num, by norm_num, -1, by norm_num⟩
      unfold turn; rw [this]; norm_num [trap]
    rw [w1, w2, w3]
    congr 1 <;> ring

/-- So no accuracy of the colours that are read is enough for this operation: there are colours 1/32768 apart that end up
1/2 apart. -/
theorem C137_not_stable : ∃ c d : Col ℝ, Spec.Unit c ∧ Spec.Unit d ∧ Spec.Apart (1 / 32768) c d ∧
    (Rgb.with_lightness c (1 / 2)).c2 - (Rgb.with_lightness d (1 / 2)).c2 = 1 / 2 := by
  obtain ⟨e1, e2⟩ := C137_near_white (1 / 32768) 1 (1 / 2) le_rfl (by norm_num) (by norm_num) le_rfl (by norm_num) le_rfl
  refine ⟨⟨1, 1, 1, 1⟩, ⟨1, 1, 1 - 1 / 32768, 1⟩, ?_, ?_, ?_, ?_⟩
  · constructor <;> norm_num
  · constructor <;> norm_num
  · refine ⟨?_, ?_, ?_, rfl⟩ <;> norm_num
  · rw [e1, e2]; norm_num [plainGray]

/-- **Adding saturation**, or taking it away: every channel keeps `k` times its distance from the middle, or as much as there is room
for between black and white. -/
theorem C137_saturation (c : Col ℝ) (h : Spec.Unit c) (k : ℝ) (k0 : 0 ≤ k) :
    (1 / 32768 ≤ spread c → Spec.Apart (min k (room (midpoint c) / spread c) / 32768) (Rgb.with_saturation c k) (boost k c)) ∧
    (spread c < 1 / 32768 → Rgb.with_saturation c k = plainGray (midpoint c) c.alpha) := by
  obtain ⟨h0, h1, s0, s1, l0, l1, lm, ea⟩ := C28_hsl_range c h
  have lm' : (to_hsl .rgb c).c2 = midpoint c := lm
  obtain ⟨z0, z1⟩ := limit_unit (k * (to_hsl .rgb c).c1)
  have e : Rgb.with_saturation c k = Hsl.to_rgb ⟨(to_hsl .rgb c).c0, limit (k * (to_hsl .rgb c).c1), (to_hsl .rgb c).c2, c.alpha⟩ := by
    rw [(C83_hsl c k 1 one_pos).1]
    rfl
  rw [Exact.hsl_to_rgb h0 h1.le z0 z1 l0 l1 h.a0 h.a1] at e
  constructor
  · intro hd
    obtain ⟨q1, q2, q3⟩ := saturation_room h hd
    have d0 : 0 < spread c := lt_of_lt_of_le (by norm_num) hd
    have f : limit (k * (to_hsl .rgb c).c1) = min k (room (midpoint c) / spread c) * (to_hsl .rgb c).c1 := by
      rw [q3]
      unfold limit
      have p : 0 < spread c / room (midpoint c) := div_pos d0 q1
      rw [max_eq_right (le_min zero_le_one (mul_nonneg k0 p.le)), min_mul_of_nonneg _ _ p.le, div_mul_div_comm,
        mul_comm (spread c), div_self (mul_pos q1 d0).ne', min_comm]
    have j0 : 0 ≤ min k (room (midpoint c) / spread c) := le_min k0 (div_pos q1 d0).le
    have n := C28_hsl_round_trip c h
    rw [Exact.col_eq] at n
    have e' : to_rgb .hsl (to_hsl .rgb c) = Hsl.to_rgb ⟨(to_hsl .rgb c).c0, (to_hsl .rgb c).c1, (to_hsl .rgb c).c2, c.alpha⟩ := by
      rw [← ea]; rfl
    rw [e', Exact.hsl_to_rgb h0 h1.le s0 s1 l0 l1 h.a0 h.a1] at n
    rw [e, f]
    unfold boost
    generalize min k (room (midpoint c) / spread c) = j at *
    have go : ∀ {t v : ℝ}, |hslChannel (to_hsl .rgb c).c1 (to_hsl .rgb c).c2 t - v| ≤ 1 / 32768 →
        |hslChannel (j * (to_hsl .rgb c).c1) (to_hsl .rgb c).c2 t - (midpoint c + j * (v - midpoint c))| ≤ j / 32768 := by
      intro t v hv
      have : hslChannel (j * (to_hsl .rgb c).c1) (to_hsl .rgb c).c2 t - (midpoint c + j * (v - midpoint c)) =
          j * (hslChannel (to_hsl .rgb c).c1 (to_hsl .rgb c).c2 t - v) := by
        rw [← lm']
        unfold hslChannel span
        ring
      rw [this, abs_mul, abs_of_nonneg j0]
      have := mul_le_mul_of_nonneg_left hv j0
      linarith
    exact ⟨go n.1, go n.2.1, go n.2.2.1, rfl⟩
  · intro hd
    have sg : (to_hsl .rgb c).c1 = 0 := by
      show (Rgb.to_hsl c).c1 = 0
      rw [Exact.to_hsl_gray h hd]
    rw [e, sg, lm']
    unfold hslChannel span limit plainGray
    norm_num

end

/-! ## The hypotheses can be met -/

/-- A dark red for `C137_darken`, and what halving its lightness should give. -/
example : Spec.Unit (⟨4 / 5, 1 / 10, 0, 1⟩ : Col ℝ) ∧ midpoint ⟨4 / 5, 1 / 10, 0, 1⟩ ≤ 1 / 2 ∧
    eachChannel ((1 / 2) * ·) (⟨4 / 5, 1 / 10, 0, 1⟩ : Col ℝ) = ⟨2 / 5, 1 / 20, 0, 1⟩ := by
  refine ⟨by constructor <;> norm_num, by norm_num [Spec.midpoint], by norm_num [eachChannel]⟩

/-- A light blue for `C137_lighten`: its middle is 3/4, and 10/9 times that is 5/6. -/
example : Spec.Unit (⟨1 / 2, 3 / 4, 1, 1⟩ : Col ℝ) ∧ midpoint ⟨1 / 2, 3 / 4, 1, 1⟩ = 3 / 4 ∧ (10 / 9 : ℝ) * (3 / 4) ≤ 1 := by
  refine ⟨by constructor <;> norm_num, by norm_num [Spec.midpoint], by norm_num⟩

/-- A dull brown for `C137_saturation`: twice the saturation fits, ten times does not, and then one channel becomes 0. -/
example : 1 / 32768 ≤ spread ⟨1 / 2, 3 / 8, 1 / 4, 1⟩ ∧ boost 2 ⟨1 / 2, 3 / 8, 1 / 4, 1⟩ = ⟨5 / 8, 3 / 8, 1 / 8, 1⟩ ∧
    boost 10 ⟨1 / 2, 3 / 8, 1 / 4, 1⟩ = ⟨3 / 4, 3 / 8, 0, 1⟩ := by
  have m : midpoint (⟨1 / 2, 3 / 8, 1 / 4, 1⟩ : Col ℝ) = 3 / 8 := by norm_num [Spec.midpoint]
  have s : spread (⟨1 / 2, 3 / 8, 1 / 4, 1⟩ : Col ℝ) = 1 / 4 := by norm_num [spread]
  have r : room (3 / 8) = 3 / 4 := by norm_num [room]
  unfold boost fade
  rw [s, m, r]
  refine ⟨by norm_num, ?_, ?_⟩ <;> norm_num [eachChannel]

end D10
