import Verif.Props.LabFloat
import Verif.SpecYuvFloat

/-!
# C116: YUV with 32-bit numbers

The matrices are applied with rounding errors, so that a channel that was 0 or 1 can come back outside [0, 1]
before the transfer function is applied to it.
-/

namespace D10

open D10 D10.Spec Scalar

local notation "Chan01" x:max => (FP.fin (x : F32) = true ∧ 0 ≤ FP.val (x : F32) ∧ FP.val (x : F32) ≤ 1)

section
variable [Libm b32] [Junk]

/-- The transfer function and the limits, for a number that may be a little outside [0, 1]. -/
theorem g2l_outside {δ : ℝ} (hL : PowWithin δ) (hN : PowNear δ) {w : F32} (hw : w.fin = true)
    (h0 : -(1 / 100) ≤ (w.val : ℝ)) (h1 : (w.val : ℝ) ≤ 1 + 1 / 100) :
    (Chan01 (clamp01 (gamma_to_linear w) : F32)) ∧
    Close (clamp01 (gamma_to_linear w)) (gamma_to_linear (clamp01 (w.val : ℝ))) (δ + 8 / 10000000) := by
  have hδ := PowWithin.nonneg hL
  obtain ⟨e0, e1, -, -⟩ := C30_end_points
  have t := (NearF.lit (B := 1) 0 0.04045 (by norm_num) (by norm_num) (by norm_num)).close
  have te := t.err
  have hc : (lit 0.04045 <. w) = decide ((lit 0.04045 : F32).val < w.val) := FP.lt_fin t.fin hw
  have hg : (gamma_to_linear w : F32) = if (lit 0.04045 <. w) then
    Scalar.powf ((w +. lit 0.055) /. lit 1.055) (lit 2.4) else w /. lit 12.92 := rfl
  rcases lt_or_ge (w.val : ℝ) 0 with hneg | hpos
  · have hn : ¬ ((lit 0.04045 : F32).val < w.val) := by
      intro hlt
      have : ((lit 0.04045 : F32).val : ℝ) < w.val := by exact_mod_cast hlt
      rw [abs_le] at te
      norm_num at te
      linarith
    rw [hg, hc, decide_eq_false hn]
    simp only [Bool.false_eq_true, if_false]
    have n := (NearF.of_fin hw (B := 1 / 100) (by rw [abs_le]; constructor <;> linarith)).div 0 (by norm_num) (m := 12.92)
      (NearF.lit 4 12.92 (B := 12.92) (by norm_num) (by norm_num) (by norm_num)) (by norm_num) (by norm_num) (by norm_num)
    refine ⟨clamp_chan n.close.fin, ?_⟩
    have c := near_clamp n
    have z : clamp01 ((w.val : ℝ) / ((12.92 : ℚ) : ℝ)) = 0 := by
      rw [Exact.clamp01, max_eq_left]
      refine (min_le_right _ _).trans (div_nonpos_of_nonpos_of_nonneg hneg.le (by norm_num))
    have z' : clamp01 (w.val : ℝ) = 0 := by
      rw [Exact.clamp01, max_eq_left]
      exact (min_le_right _ _).trans hneg.le
    rw [z', e0]
    rw [z] at c
    exact c.mono (by norm_num; linarith)
  · rcases le_or_gt (w.val : ℝ) 1 with hle | hgt
    · have hch : Chan01 w := ⟨hw, by exact_mod_cast hpos, by exact_mod_cast hle⟩
      refine ⟨clamp_chan (C86_gamma_to_linear δ hL w hch).fin, ?_⟩
      have c := close_clamp (C86_gamma_to_linear δ hL w hch)
      rw [Exact.clamp01_id (C30_range _ hpos hle).1 (C30_range _ hpos hle).2] at c
      rw [Exact.clamp01_id hpos hle]
      exact c
    · have hn : (lit 0.04045 : F32).val < w.val := by
        have : ((lit 0.04045 : F32).val : ℝ) < w.val := by
          rw [abs_le] at te
          norm_num at te
          linarith
        exact_mod_cast this
      rw [hg, hc, decide_eq_true hn, if_pos rfl]
      have n := ((NearF.of_fin hw (B := 1.01) (by rw [abs_le]; constructor <;> linarith)).add 1 (by norm_num)
        (NearF.lit 0 0.055 (B := 0.055) (by norm_num) (by norm_num) (by norm_num)) (by norm_num)).div 1 (by norm_num)
        (m := 1.055) (NearF.lit 1 1.055 (B := 1.055) (by norm_num) (by norm_num) (by norm_num)) (by norm_num)
        (by norm_num) (by norm_num)
      have n' := n.is (r := ((w.val : ℝ) + 0.055) / 1.055) (d := 22 / 100000000) (by norm_num) (by norm_num)
      have q1 : 1 ≤ ((w.val : ℝ) + 0.055) / 1.055 := by rw [le_div_iff₀ (by norm_num)]; norm_num; linarith
      have q2 : ((w.val : ℝ) + 0.055) / 1.055 ≤ 1.1 := by rw [div_le_iff₀ (by norm_num)]; norm_num; linarith
      generalize ((w +. lit 0.055) /. lit 1.055 : F32) = x at *
      have xe := n'.err
      rw [abs_le] at xe
      have x0 : 1 - 22 / 100000000 ≤ (x.val : ℝ) := by linarith
      have x1 : (x.val : ℝ) ≤ 1.4 := by norm_num at *; linarith
      have y : (FP.ofRat b32 false 2.4).fin = true ∧ (2 : ℚ) ≤ (FP.ofRat b32 false 2.4).val ∧
        (FP.ofRat b32 false 2.4).val ≤ 3 := by decide +kernel
      have c := hN x (lit 2.4) n'.fin y.1 (by have : (0 : ℝ) ≤ x.val := le_trans (by norm_num) x0
                                              exact_mod_cast this)
        (by have : ((x.val : ℚ) : ℝ) ≤ ((1.4 : ℚ) : ℝ) := by push_cast; exact x1
            exact_mod_cast this) (lt_of_lt_of_le (by norm_num) y.2.1) y.2.2
      have yl : (2 : ℝ) ≤ ((lit 2.4 : F32).val : ℝ) := by exact_mod_cast y.2.1
      have yu : ((lit 2.4 : F32).val : ℝ) ≤ 3 := by exact_mod_cast y.2.2
      refine ⟨clamp_chan c.fin, ?_⟩
      have c := close_clamp c
      have z' : clamp01 (w.val : ℝ) = 1 := by
        rw [Exact.clamp01, min_eq_left hgt.le]; exact max_eq_right zero_le_one
      rw [z', e1]
      refine (close_clamp_exact c (d := 66 / 100000000) ?_).mono (by linarith)
      generalize ((lit 2.4 : F32).val : ℝ) = p at *
      have hb : 1 - 66 / 100000000 ≤ (x.val : ℝ) ^ p := by
        rcases le_total 1 (x.val : ℝ) with hx | hx
        · have := Real.one_le_rpow hx (show 0 ≤ p by linarith)
          exact le_trans (by norm_num) this
        · have xp : 0 < (x.val : ℝ) := lt_of_lt_of_le (by norm_num) x0
          have a := Real.rpow_le_rpow_of_exponent_ge xp hx yu
          have b := one_add_mul_le_pow (a := (x.val : ℝ) - 1) (by linarith) 3
          have e : (x.val : ℝ) ^ (3 : ℝ) = (1 + ((x.val : ℝ) - 1)) ^ 3 := by
            rw [add_sub_cancel]; exact_mod_cast Real.rpow_natCast (x.val : ℝ) 3
          rw [e] at a
          push_cast at b
          linarith
      rw [Exact.clamp01, abs_le]
      rcases le_total 1 ((x.val : ℝ) ^ p) with h | h
      · rw [min_eq_left h, max_eq_right zero_le_one]; norm_num
      · rw [min_eq_right h, max_eq_right (le_trans (by norm_num) hb)]
        constructor <;> linarith

omit [Libm b32] in
/-- The sRGB curve keeps [0, 1]. -/
theorem l2g_unit {v : ℝ} (v0 : 0 ≤ v) (v1 : v ≤ 1) :
    0 ≤ (linear_to_gamma v : ℝ) ∧ (linear_to_gamma v : ℝ) ≤ 1 := by
  by_cases hx : v ≤ 0.003130805
  · rw [Exact.l2g_low hx]
    constructor
    · positivity
    · norm_num at hx ⊢; linarith
  · have hx := not_le.1 hx
    rw [Exact.l2g_high hx]
    have a : (0.0904 : ℝ) ≤ v ^ ((1 : ℝ) / 2.4) :=
      le_root v0 (by norm_num) (le_trans (by norm_num) (pow_le_pow_left₀ (by norm_num) hx.le 5))
    have b : v ^ ((1 : ℝ) / 2.4) ≤ 1 := Real.rpow_le_one v0 v1 (by norm_num)
    constructor
    · norm_num at a ⊢; linarith
    · norm_num at b ⊢; linarith

omit [Junk] in
/-- From sRGB to YUV: each row of the matrix. -/
theorem yuv_rows (c : Col F32) (h : UnitCol c) :
    NearF (to_yuv .srgb c).c0 (0.299 * c.c0.val + 0.587 * c.c1.val + 0.114 * c.c2.val) (32 / 100000000) 1.01 ∧
    NearF (to_yuv .srgb c).c1 (-0.14714119 * c.c0.val - 0.28886917 * c.c1.val + 0.43601036 * c.c2.val)
      (32 / 100000000) 0.45 ∧
    NearF (to_yuv .srgb c).c2 (0.6149754 * c.c0.val - 0.5149651 * c.c1.val - 0.10001026 * c.c2.val)
      (32 / 100000000) 0.65 := by
  obtain ⟨r0, r1⟩ := unit_real h.c0
  obtain ⟨g0, g1⟩ := unit_real h.c1
  obtain ⟨b0, b1⟩ := unit_real h.c2
  have m : ∀ {x : F32} (q : ℚ) {B : ℝ}, (Chan01 x) → |(q : ℝ)| ≤ B → B ≤ 0.99 →
      NearF (x *. lit q) ((x.val : ℝ) * q) (2 / 33554432) B := fun {x} q {B} hx hq hB =>
    ((NearF.unit hx).mul 0 (by norm_num) (NearF.lit 0 q (by norm_num) hq (by norm_num at hB ⊢; linarith))
      (by norm_num at hB ⊢; linarith)).mono (by norm_num) (by rw [one_mul])
  refine ⟨⟨?_, ?_⟩, ⟨?_, ?_⟩, ⟨?_, ?_⟩⟩
  · have n := ((m 0.299 h.c0 (B := 0.299) (by norm_num) (by norm_num)).add 0 (by norm_num)
      (m 0.587 h.c1 (B := 0.587) (by norm_num) (by norm_num)) (by norm_num)).add 1 (by norm_num)
      (m 0.114 h.c2 (B := 0.114) (by norm_num) (by norm_num)) (by norm_num)
    exact n.is (by push_cast; ring) (by norm_num)
  · rw [abs_le]; constructor <;> norm_num <;> linarith
  · have n := ((m (-0.14714119) h.c0 (B := 0.15) (by norm_num) (by norm_num)).add 0 (by norm_num)
      (m (-0.28886917) h.c1 (B := 0.3) (by norm_num) (by norm_num)) (by norm_num)).add 0 (by norm_num)
      (m 0.43601036 h.c2 (B := 0.44) (by norm_num) (by norm_num)) (by norm_num)
    exact n.is (by push_cast; ring) (by norm_num)
  · rw [abs_le]; constructor <;> norm_num <;> linarith
  · have n := ((m 0.6149754 h.c0 (B := 0.62) (by norm_num) (by norm_num)).add 1 (by norm_num)
      (m (-0.5149651) h.c1 (B := 0.52) (by norm_num) (by norm_num)) (by norm_num)).add 1 (by norm_num)
      (m (-0.10001026) h.c2 (B := 0.11) (by norm_num) (by norm_num)) (by norm_num)
    exact n.is (by push_cast; ring) (by norm_num)
  · rw [abs_le]; constructor <;> norm_num <;> linarith

omit [Junk] in
/-- From YUV to sRGB: each row of the matrix, for arguments that already have an error. -/
theorem yuv_back_rows {y u v : F32} {p q r : ℝ} (hy : NearF y p (32 / 100000000) 1.01)
    (hu : NearF u q (32 / 100000000) 0.45) (hv : NearF v r (32 / 100000000) 0.65) :
    Close (y *. lit 1 +. u *. lit 0 +. v *. lit 1.139883) (p + 1.139883 * r) (14 / 10000000) ∧
    Close (y *. lit 1 +. u *. lit (-0.39464232) +. v *. lit (-0.58062184))
      (p - 0.39464232 * q - 0.58062184 * r) (14 / 10000000) ∧
    Close (y *. lit 1 +. u *. lit 2.0320618 +. v *. lit 0) (p + 2.0320618 * q) (14 / 10000000) := by
  have zero : NearF (lit 0 : F32) 0 0 0 := by
    have := NearF.lit_rep (B := 0) 0 FP.lit0 (by norm_num); simpa using this
  have a := hy.mul 1 (by norm_num) NearF.one (by norm_num)
  refine ⟨?_, ?_, ?_⟩
  · have n := (a.add 1 (by norm_num) (hu.mul 0 (by norm_num) zero (by norm_num)) (by norm_num)).add 1 (by norm_num)
      (hv.mul 0 (by norm_num) (NearF.lit 1 1.139883 (B := 1.14) (by norm_num) (by norm_num) (by norm_num))
        (by norm_num)) (by norm_num)
    exact n.is (by push_cast; ring) (by norm_num)
  · have n := (a.add 1 (by norm_num) (hu.mul 0 (by norm_num)
      (NearF.lit 0 (-0.39464232) (B := 0.4) (by norm_num) (by norm_num) (by norm_num)) (by norm_num))
      (by norm_num)).add 1 (by norm_num)
      (hv.mul 0 (by norm_num) (NearF.lit 0 (-0.58062184) (B := 0.59) (by norm_num) (by norm_num) (by norm_num))
        (by norm_num)) (by norm_num)
    exact n.is (by push_cast; ring) (by norm_num)
  · have n := (a.add 1 (by norm_num) (hu.mul 0 (by norm_num)
      (NearF.lit 2 2.0320618 (B := 2.04) (by norm_num) (by norm_num) (by norm_num)) (by norm_num))
      (by norm_num)).add 1 (by norm_num) (hv.mul 0 (by norm_num) zero (by norm_num)) (by norm_num)
    exact n.is (by push_cast; ring) (by norm_num)

/-- One channel on its way from YUV to RGB: it is near the one of the sRGB value `s`. -/
theorem from_yuv_chan {δ : ℝ} (hL : PowWithin δ) (hN : PowNear δ) {w : F32} {s e : ℝ} (hw : Close w s e)
    (he : e ≤ 1 / 100) (s0 : 0 ≤ s) (s1 : s ≤ 1) :
    Close (clamp01 (gamma_to_linear w)) (gamma_to_linear s) (δ + 2.3 * e + 9 / 10000000) := by
  have we := hw.err
  have wr := we
  rw [abs_le] at wr
  have c := (g2l_outside hL hN hw.fin (by linarith) (by linarith)).2
  have cu := clamp01_unit (w.val : ℝ)
  have n := clamp01_near s0 s1 we
  have st := g2l_stretch cu.1 cu.2 s0 s1
  refine (close_clamp_exact c st).mono ?_
  have := mul_le_mul_of_nonneg_left n (show (0 : ℝ) ≤ 2.3 by norm_num)
  linarith

/-- C116: from YUV to RGB, for YUV colours that a screen can show. -/
theorem C116_from_yuv (δ : ℝ) (hL : PowWithin δ) (hN : PowNear δ) (c : Col F32) (h : YuvRange c)
    (hs : Showable c.c0.val c.c1.val c.c2.val) :
    CloseCol (δ + 43 / 10000000) (to_rgb .yuv c) (to_rgb .yuv (exact c)) := by
  have hδ := PowWithin.nonneg hL
  obtain ⟨w0, w1, w2⟩ := yuv_back_rows ((NearF.of_fin h.c0.1 h.c0.2).mono (by norm_num) le_rfl)
    ((NearF.of_fin h.c1.1 h.c1.2).mono (by norm_num) le_rfl) ((NearF.of_fin h.c2.1 h.c2.2).mono (by norm_num) le_rfl)
  have key : ∀ {w : F32} {s t : ℝ}, Close w s (14 / 10000000) → 0 ≤ s ∧ s ≤ 1 → t = s →
      Close (clamp01 (gamma_to_linear w)) (clamp01 (gamma_to_linear t)) (δ + 43 / 10000000) := by
    intro w s t hw h01 hst
    rw [hst, Exact.clamp01_id (C30_range _ h01.1 h01.2).1 (C30_range _ h01.1 h01.2).2]
    exact (from_yuv_chan hL hN hw (by norm_num) h01.1 h01.2).mono (by norm_num; linarith)
  refine ⟨key w0 hs.red ?_, key w1 hs.green ?_, key w2 hs.blue ?_, ?_⟩
  · simp only [exact, apply_matrix]; ex_simp; ring
  · simp only [exact, apply_matrix]; ex_simp; ring
  · simp only [exact, apply_matrix]; ex_simp; ring
  · exact (clamp_unit h.alpha).mono (by linarith)

omit [Junk] in
/-- sRGB to YUV, and the matrix back: every channel is near the one it was. -/
theorem yuv_there_and_back (c : Col F32) (h : UnitCol c) :
    ∃ r g b : F32, to_rgb .yuv (to_yuv .srgb c) = Srgb.to_rgb ⟨r, g, b, c.alpha⟩ ∧
      Close r c.c0.val (15 / 10000000) ∧ Close g c.c1.val (15 / 10000000) ∧ Close b c.c2.val (15 / 10000000) := by
  obtain ⟨n0, n1, n2⟩ := yuv_rows c h
  obtain ⟨w0, w1, w2⟩ := yuv_back_rows n0 n1 n2
  obtain ⟨r0, r1⟩ := unit_real h.c0
  obtain ⟨g0, g1⟩ := unit_real h.c1
  obtain ⟨b0, b1⟩ := unit_real h.c2
  refine ⟨_, _, _, rfl, (close_clamp_exact w0 (d := 1 / 10000000) ?_).mono (by norm_num),
    (close_clamp_exact w1 (d := 1 / 10000000) ?_).mono (by norm_num),
    (close_clamp_exact w2 (d := 1 / 10000000) ?_).mono (by norm_num)⟩
  all_goals rw [abs_le]; constructor <;> norm_num <;> linarith

/-- C116: sRGB to YUV and back: near the colour, and equal (`==`) to it if the power function is within 2^-20. -/
theorem C116_srgb_round_trip (δ : ℝ) (hL : PowWithin δ) (hN : PowNear δ) (hδ : δ ≤ 1 / 1048576) (c : Col F32)
    (h : UnitCol c) :
    CloseCol (14.1 * δ + 167 / 10000000) (to_srgb .yuv (to_yuv .srgb c)) (exact c) ∧
    Col.eq (to_srgb .yuv (to_yuv .srgb c)) c = true := by
  have hδ0 := PowWithin.nonneg hL
  obtain ⟨r, g, b, e, hr, hg, hb⟩ := yuv_there_and_back c h
  have key : ∀ {w v : F32}, (Chan01 v) → Close w v.val (15 / 10000000) →
      Close (clamp01 (linear_to_gamma (clamp01 (gamma_to_linear w)))) (v.val : ℝ) (14.1 * δ + 167 / 10000000) := by
    intro w v hv hw
    obtain ⟨v0, v1⟩ := unit_real hv
    have we := hw.err
    have wr := we
    rw [abs_le] at wr
    obtain ⟨hx, g⟩ := g2l_outside hL hN hw.fin (by linarith) (by linarith)
    generalize (clamp01 (gamma_to_linear w) : F32) = x at *
    have cu := clamp01_unit (w.val : ℝ)
    have l := close_clamp (C86_linear_to_gamma _ hL (by linarith) x hx)
    have n := l2g_near (a := (x.val : ℝ)) (b := gamma_to_linear (clamp01 (w.val : ℝ))) (unit_real hx).1
      (C30_range _ cu.1 cu.2).1
    rw [C30_round_trip] at n
    have n2 := clamp01_near v0 v1 we
    have n3 : |(linear_to_gamma (x.val : ℝ) : ℝ) - v.val| ≤ 13 * (δ + 8 / 10000000) + 2 / 1000000 + 15 / 10000000 := by
      have := g.err
      calc |(linear_to_gamma (x.val : ℝ) : ℝ) - v.val|
          = |(linear_to_gamma (x.val : ℝ) - clamp01 (w.val : ℝ)) + (clamp01 (w.val : ℝ) - v.val)| := by ring_nf
        _ ≤ _ := abs_add_le _ _
        _ ≤ _ := add_le_add (n.trans (by linarith)) n2
    refine (close_clamp_exact l (clamp01_near v0 v1 n3)).mono ?_
    norm_num
    linarith
  have cc : CloseCol (14.1 * δ + 167 / 10000000) (to_srgb .yuv (to_yuv .srgb c)) (exact c) := by
    have e2 : to_srgb .yuv (to_yuv .srgb c) = Rgb.to_srgb (Srgb.to_rgb ⟨r, g, b, c.alpha⟩) := by rw [← e]; rfl
    rw [e2]
    refine ⟨key h.c0 hr, key h.c1 hg, key h.c2 hb, ?_⟩
    show Close (clamp01 (clamp01 c.alpha)) (c.alpha.val : ℝ) _
    have := close_clamp (clamp_unit h.alpha)
    rw [Exact.clamp01_id (clamp01_unit _).1 (clamp01_unit _).2,
      Exact.clamp01_id (unit_real h.alpha).1 (unit_real h.alpha).2] at this
    exact this.mono (by linarith)
  refine ⟨cc, eq_of_close (e := exact c) (b := 0) cc ⟨h.c0.1, h.c1.1, h.c2.1, h.alpha.1⟩ ?_ ?_ ?_ ?_
    (by norm_num at hδ ⊢; linarith)⟩
  all_goals simp [exact]

/-- C116: RGB to YUV and back, which applies the transfer function in both directions. -/
theorem C116_rgb_round_trip (δ : ℝ) (hL : PowWithin δ) (hN : PowNear δ) (hδ : δ ≤ 1 / 1048576) (c : Col F32)
    (h : UnitCol c) :
    CloseCol (3.5 * δ + 268 / 10000000) (to_rgb .yuv (to_yuv .rgb c)) (exact c) ∧
    Col.eq (to_rgb .yuv (to_yuv .rgb c)) c = true := by
  have hδ0 := PowWithin.nonneg hL
  have hg0 : ∀ {v : F32}, (Chan01 v) → (Chan01 (clamp01 (linear_to_gamma v) : F32)) ∧
      |(gamma_to_linear ((clamp01 (linear_to_gamma v) : F32).val : ℝ) : ℝ) - v.val| ≤
        2.3 * (1.06 * δ + 27 / 10000000) + 1 / 10000000 + 1 / 65536 := by
    intro v hv
    obtain ⟨v0, v1⟩ := unit_real hv
    have g := close_clamp (C86_linear_to_gamma _ hL (by linarith) v hv)
    have hw : Chan01 (clamp01 (linear_to_gamma v) : F32) :=
      clamp_chan (C86_linear_to_gamma _ hL (by linarith) v hv).fin
    refine ⟨hw, ?_⟩
    have back : |(gamma_to_linear (clamp01 (linear_to_gamma (v.val : ℝ))) : ℝ) - v.val| ≤ 1 / 65536 := by
      obtain ⟨l0, l1⟩ := l2g_unit v0 v1
      rw [Exact.clamp01_id l0 l1]
      exact (C30_round_trip_linear _ v0).1
    generalize (clamp01 (linear_to_gamma v) : F32) = w at *
    obtain ⟨w0, w1⟩ := unit_real hw
    have hq := clamp01_unit (linear_to_gamma (v.val : ℝ))
    generalize (clamp01 (linear_to_gamma (v.val : ℝ)) : ℝ) = q at *
    have n := g2l_stretch w0 w1 hq.1 hq.2
    have ge := mul_le_mul_of_nonneg_left g.err (show (0 : ℝ) ≤ 2.3 by norm_num)
    calc |(gamma_to_linear (w.val : ℝ) : ℝ) - v.val|
        = |(gamma_to_linear (w.val : ℝ) - gamma_to_linear q) + (gamma_to_linear q - v.val)| := by ring_nf
      _ ≤ _ := abs_add_le _ _
      _ ≤ _ := add_le_add (n.trans (by linarith)) back
  have hu : UnitCol (to_srgb .rgb c) := by
    refine ⟨(hg0 h.c0).1, (hg0 h.c1).1, (hg0 h.c2).1, clamp_chan h.alpha.1⟩
  obtain ⟨r, g, b, e, hr, hg, hb⟩ := yuv_there_and_back _ hu
  have e : to_rgb .yuv (to_yuv .rgb c) = Srgb.to_rgb ⟨r, g, b, (to_srgb .rgb c).alpha⟩ := e
  have key : ∀ {w v : F32}, (Chan01 v) → Close w (clamp01 (linear_to_gamma v) : F32).val (15 / 10000000) →
      Close (clamp01 (gamma_to_linear w)) (v.val : ℝ) (3.5 * δ + 268 / 10000000) := by
    intro w v hv hw
    obtain ⟨hx, hb⟩ := hg0 hv
    obtain ⟨x0, x1⟩ := unit_real hx
    refine (close_clamp_exact (from_yuv_chan hL hN hw (by norm_num) x0 x1) hb).mono ?_
    norm_num
    linarith
  have cc : CloseCol (3.5 * δ + 268 / 10000000) (to_rgb .yuv (to_yuv .rgb c)) (exact c) := by
    rw [e]
    refine ⟨key h.c0 hr, key h.c1 hg, key h.c2 hb, ?_⟩
    show Close (clamp01 (clamp01 c.alpha)) (c.alpha.val : ℝ) _
    have := close_clamp (clamp_unit h.alpha)
    rw [Exact.clamp01_id (clamp01_unit _).1 (clamp01_unit _).2,
      Exact.clamp01_id (unit_real h.alpha).1 (unit_real h.alpha).2] at this
    exact this.mono (by linarith)
  refine ⟨cc, eq_of_close (e := exact c) (b := 0) cc ⟨h.c0.1, h.c1.1, h.c2.1, h.alpha.1⟩ ?_ ?_ ?_ ?_
    (by norm_num at hδ ⊢; linarith)⟩
  all_goals simp [exact]

end

/-- The functions of the examples meet the bound of C86 too. -/
theorem nearestLab_powWithin : letI := nearestLab; PowWithin (1 / 4194304) := by
  let := nearestLab
  intro x y hx hy h0 h1 y0
  have x0 : (0 : ℝ) ≤ x.val := by exact_mod_cast h0
  have x1 : (x.val : ℝ) ≤ 1 := by exact_mod_cast h1
  have y0 : (0 : ℝ) ≤ y.val := by exact_mod_cast y0.le
  refine nearestF_close ?_
  rw [abs_of_nonneg (Real.rpow_nonneg x0 _)]
  exact (Real.rpow_le_one x0 x1 y0).trans (by norm_num)

/-- Non-vacuity: with these functions both round trips apply to the colour. -/
example [Junk] : letI := nearestLab
    Col.eq (to_srgb .yuv (to_yuv .srgb labSample)) labSample = true ∧
    Col.eq (to_rgb .yuv (to_yuv .rgb labSample)) labSample = true := by
  let := nearestLab
  exact ⟨(C116_srgb_round_trip _ nearestLab_powWithin nearestLab_pow (by norm_num) _ labSample_unit).2,
    (C116_rgb_round_trip _ nearestLab_powWithin nearestLab_pow (by norm_num) _ labSample_unit).2⟩

/-- A YUV colour for the example. -/
def yuvSample : Col F32 :=
  ⟨FP.ofRat b32 false (1 / 2), FP.ofRat b32 true (1 / 8), FP.ofRat b32 false (1 / 4), FP.ofRat b32 false (1 / 2)⟩

/-- Non-vacuity: the range and the condition hold for a colour. -/
example [Junk] : letI := nearestLab
    CloseCol (1 / 4194304 + 43 / 10000000) (to_rgb .yuv yuvSample) (to_rgb .yuv (exact yuvSample)) := by
  let := nearestLab
  have v0 : yuvSample.c0.fin = true ∧ yuvSample.c0.val = 1 / 2 := by decide +kernel
  have v1 : yuvSample.c1.fin = true ∧ yuvSample.c1.val = 1 / 8 := by decide +kernel
  have v2 : yuvSample.c2.fin = true ∧ yuvSample.c2.val = 1 / 4 := by decide +kernel
  refine C116_from_yuv _ nearestLab_powWithin nearestLab_pow _ ⟨⟨v0.1, ?_⟩, ⟨v1.1, ?_⟩, ⟨v2.1, ?_⟩, ?_⟩ ⟨?_, ?_, ?_⟩
  · rw [v0.2]; norm_num [abs_le]
  · rw [v1.2]; norm_num [abs_le]
  · rw [v2.2]; norm_num [abs_le]
  · decide +kernel
  all_goals rw [v0.2]; (try rw [v1.2]); (try rw [v2.2]); norm_num

end D10
