import Verif.Lemmas.HslFloat

/-! # The round trip through HSL in binary32 -/

namespace D10
open Spec
open Scalar (lit)

/-! ## The wheel at the hues computed by `to_hsl` -/

theorem wheel_top {t : ℝ} (h0 : 1 / 6 ≤ t) (h1 : t ≤ 1 / 2) : wheel t = 1 := by
  rw [wheel_mid (by linarith) (by linarith)]
  rcases le_total t (1 / 3) with h | h
  · rw [trap_low h, min_eq_left (by linarith), max_eq_right zero_le_one]
  · rw [trap_high h, min_eq_left (by linarith), max_eq_right zero_le_one]

theorem wheel_up {t : ℝ} (h0 : 0 ≤ t) (h1 : t ≤ 1 / 6) : wheel t = 6 * t := by
  rw [wheel_mid (by linarith) (by linarith), trap_low (by linarith), min_eq_right (by linarith),
    max_eq_right (by linarith)]

theorem wheel_down {t : ℝ} (h0 : 1 / 2 ≤ t) (h1 : t ≤ 2 / 3) : wheel t = 4 - 6 * t := by
  rw [wheel_mid (by linarith) (by linarith), trap_high (by linarith), min_eq_right (by linarith),
    max_eq_right (by linarith)]

theorem wheel_none {t : ℝ} (h0 : 2 / 3 ≤ t) (h1 : t ≤ 1) : wheel t = 0 := by
  rw [wheel_mid (by linarith) (by linarith), trap_right h0]

theorem wheel_succ {t : ℝ} (h0 : -1 ≤ t) (h1 : t ≤ 0) : wheel t = wheel (t + 1) := by
  rw [wheel_low h1, wheel_mid (by linarith) (by linarith)]

theorem wheel_pred {t : ℝ} (h0 : 1 ≤ t) (h1 : t ≤ 2) : wheel t = wheel (t - 1) := by
  rw [wheel_high h0, wheel_mid (by linarith) (by linarith)]

theorem wheel_red_pos {k : ℝ} (h0 : 0 ≤ k) (h1 : k ≤ 1) :
    wheel (k / 6 + 1 / 3) = 1 ∧ wheel (k / 6) = k ∧ wheel (k / 6 - 1 / 3) = 0 := by
  refine ⟨wheel_top (by linarith) (by linarith), ?_, ?_⟩
  · rw [wheel_up (by linarith) (by linarith)]; ring
  · rw [wheel_succ (by linarith) (by linarith), wheel_none (by linarith) (by linarith)]

theorem wheel_red_neg {k : ℝ} (h0 : -1 ≤ k) (h1 : k ≤ 0) :
    wheel ((k + 6) / 6 + 1 / 3) = 1 ∧ wheel ((k + 6) / 6) = 0 ∧ wheel ((k + 6) / 6 - 1 / 3) = -k := by
  refine ⟨?_, wheel_none (by linarith) (by linarith), ?_⟩
  · rw [wheel_pred (by linarith) (by linarith), wheel_top (by linarith) (by linarith)]
  · rw [wheel_down (by linarith) (by linarith)]; ring

theorem wheel_green {k : ℝ} (h0 : -1 ≤ k) (h1 : k ≤ 1) :
    wheel ((k + 2) / 6 + 1 / 3) = max 0 (-k) ∧ wheel ((k + 2) / 6) = 1 ∧
      wheel ((k + 2) / 6 - 1 / 3) = max 0 k := by
  refine ⟨?_, wheel_top (by linarith) (by linarith), ?_⟩
  · rcases le_total k 0 with h | h
    · rw [max_eq_right (by linarith), wheel_down (by linarith) (by linarith)]; ring
    · rw [max_eq_left (by linarith), wheel_none (by linarith) (by linarith)]
  · rcases le_total k 0 with h | h
    · rw [max_eq_left (by linarith), wheel_succ (by linarith) (by linarith),
        wheel_none (by linarith) (by linarith)]
    · rw [max_eq_right (by linarith), wheel_up (by linarith) (by linarith)]; ring

theorem wheel_blue {k : ℝ} (h0 : -1 ≤ k) (h1 : k ≤ 1) :
    wheel ((k + 4) / 6 + 1 / 3) = max 0 k ∧ wheel ((k + 4) / 6) = max 0 (-k) ∧
      wheel ((k + 4) / 6 - 1 / 3) = 1 := by
  refine ⟨?_, ?_, wheel_top (by linarith) (by linarith)⟩
  · rcases le_total k 0 with h | h
    · rw [max_eq_left (by linarith), wheel_none (by linarith) (by linarith)]
    · rw [max_eq_right (by linarith), wheel_pred (by linarith) (by linarith),
        wheel_up (by linarith) (by linarith)]; ring
  · rcases le_total k 0 with h | h
    · rw [max_eq_right (by linarith), wheel_down (by linarith) (by linarith)]; ring
    · rw [max_eq_left (by linarith), wheel_none (by linarith) (by linarith)]

/-! ## Hue -/

variable [Libm b32]

abbrev In01 (x : F32) : Prop := x.fin = true ∧ 0 ≤ x.val ∧ x.val ≤ 1

omit [Libm b32] in
theorem In01.real {x : F32} (h : In01 x) : 0 ≤ (x.val : ℝ) ∧ (x.val : ℝ) ≤ 1 :=
  ⟨by exact_mod_cast h.2.1, by exact_mod_cast h.2.2⟩

theorem sector_near {x y M m : F32} (hx : In01 x) (hy : In01 y) (hM : In01 M) (hm : In01 m)
    (hd : (m.val : ℝ) < M.val) (h : |(x.val : ℝ) - y.val| ≤ M.val - m.val) :
    NearF ((x -. y) /. (M -. m)) (((x.val : ℝ) - y.val) / (M.val - m.val)) (4 / 16777216) 1 := by
  have a := NearF.sub_rel hx hy
  have b := NearF.sub_rel hM hm
  rw [abs_of_pos (by linarith : 0 < (M.val : ℝ) - m.val)] at b
  exact NearF.ratio (by linarith) (a.mono (by linarith) h) b

theorem nlit (n : ℚ) (h : (FP.ofRat b32 false n).fin = true ∧ (FP.ofRat b32 false n).val = n) (h0 : 0 ≤ n)
    (h6 : n ≤ 6) : NearF (lit n : F32) n 0 6 := by
  have : |(n : ℝ)| ≤ 6 := by
    rw [abs_of_nonneg (by exact_mod_cast h0)]; exact_mod_cast h6
  exact NearF.lit_rep n h this

/-- The three positions on the wheel, from a sector number. -/
theorem hue_near {k : F32} {K : ℝ} (n : ℚ) (hk : NearF k K (4 / 16777216) 1)
    (h : (FP.ofRat b32 false n).fin = true ∧ (FP.ofRat b32 false n).val = n) (h0 : 0 ≤ n)
    (h6 : n ≤ 6) :
    Close ((k +. lit n) /. lit 6 +. lit 1 /. lit 3) ((K + n) / 6 + 1 / 3) (4 / 16777216) ∧
    Close ((k +. lit n) /. lit 6) ((K + n) / 6) (4 / 16777216) ∧
    Close ((k +. lit n) /. lit 6 -. lit 1 /. lit 3) ((K + n) / 6 - 1 / 3) (4 / 16777216) := by
  have a := hk.add 3 (by norm_num) (nlit n h h0 h6) (by norm_num)
  have b := a.div 1 (by norm_num) six (m := 6) (by norm_num) (by norm_num) (by norm_num)
  have t : NearF (lit 1 /. lit 3 : F32) (1 / 3) (1 / 67108864) (1 / 3) := ⟨⟨third.1, third.2⟩, by norm_num⟩
  refine ⟨(b.add 1 (by norm_num) t (by norm_num)).is rfl (by norm_num), b.is rfl (by norm_num),
    (b.sub 1 (by norm_num) t (by norm_num)).is rfl (by norm_num)⟩

/-! ## Lightness and saturation -/

theorem NearF.add_rel {x y : F32} (hx : In01 x) (hy : In01 y) :
    NearF (x +. y) ((x.val : ℝ) + y.val) (((x.val : ℝ) + y.val) / 16777216) ((x.val : ℝ) + y.val) := by
  have s0 : 0 ≤ (x.val : ℝ) + y.val := add_nonneg hx.real.1 hy.real.1
  refine ⟨?_, (abs_of_nonneg s0).le⟩
  show Close (FP.add x y) _ _
  rw [FP.add_fin hx.1 hy.1]
  obtain ⟨m, hm⟩ := rep_grid (FP.fin_rep hx.1).1
  obtain ⟨n, hn⟩ := rep_grid (FP.fin_rep hy.1).1
  have g : x.val + y.val = ((m + n : ℤ) : ℚ) * pow2 b32.emin := by rw [hm, hn]; push_cast; ring
  have r := rn_grid_rel g
  have two : IsRep b32 2 ∧ (2 : ℚ) < pow2 b32.emax := by
    have := FP.int_finite (f := b32) 2 (by decide)
    norm_num at this; exact this
  have v := FP.ofRat_of_le (s := (x.isNeg && y.isNeg)) two.1 two.2
    (q := x.val + y.val) (abs_le.2 ⟨by linarith [hx.2.1, hy.2.1], by linarith [hx.2.2, hy.2.2]⟩)
  refine ⟨v.1, ?_⟩
  rw [v.2]
  have : ((|rn b32 (x.val + y.val) - (x.val + y.val)| : ℚ) : ℝ) ≤ ((|x.val + y.val| / 16777216 : ℚ) : ℝ) := by
    exact_mod_cast r
  push_cast at this
  rwa [abs_of_nonneg s0] at this

theorem ne_zero32 {x : F32} (h : x.fin = true) (h0 : 0 < (x.val : ℝ)) : (x ==. lit 0) = false := by
  show FP.eq x (FP.ofRat b32 false 0) = false
  rw [FP.eq_fin h FP.lit0.1, FP.lit0.2, decide_eq_false_iff_not]
  intro h'; rw [h'] at h0; simp at h0

/-- What `to_rgb` computes from lightness and saturation as `q`. -/
def q32 (l s : F32) : F32 :=
  if l <. lit 0.5 then l *. (lit 1 +. s) else l +. s -. l *. s

/-- Saturation as computed by `to_hsl`. -/
def sat32 (M m : F32) : F32 :=
  if lit 0.5 <. (M +. m) /. lit 2 then (M -. m) /. (lit 2 -. M -. m) else (M -. m) /. (M +. m)

theorem q_near {M m : F32} (hM : In01 M) (hm : In01 m) (hd : 1 / 32769 ≤ (M.val : ℝ) - m.val) :
    (sat32 M m ==. lit 0) = false ∧ NearF (q32 ((M +. m) /. lit 2) (sat32 M m)) M.val (18 / 16777216) 1 ∧
    NearF (lit 2 *. ((M +. m) /. lit 2) -. q32 ((M +. m) /. lit 2) (sat32 M m)) m.val (25 / 16777216) 1 := by
  obtain ⟨M0, M1⟩ := hM.real
  obtain ⟨m0, m1⟩ := hm.real
  have S := NearF.add_rel hM hm
  have dl := NearF.sub_rel hM hm
  rw [abs_of_pos (by linarith : 0 < (M.val : ℝ) - m.val)] at dl
  have L : NearF ((M +. m) /. lit 2) (((M.val : ℝ) + m.val) / 2) (2 / 16777216) 1 :=
    ((S.mono (d := 2 / 16777216) (B := 2) (by linarith) (by linarith)).div 1 (by norm_num) NearF.two
      (m := 2) (by norm_num) (by norm_num) (by norm_num)).mono (by norm_num) (by norm_num)
  have half := NearF.half
  have hv : ((lit 0.5 : F32).val : ℝ) = 1 / 2 := by
    have := half.close.err
    linarith [abs_nonpos_iff.1 this]
  have lerr := abs_le.1 L.close.err
  have key : (sat32 M m ==. lit 0) = false ∧
      NearF (q32 ((M +. m) /. lit 2) (sat32 M m)) M.val (18 / 16777216) 1 := by
    by_cases hl : (lit 0.5 <. (M +. m) /. lit 2) = true
    · have hl2 : ¬ ((M +. m) /. lit 2 <. lit 0.5) = true := by
        rw [lt_real half.close.fin L.close.fin, hv] at hl
        rw [lt_real L.close.fin half.close.fin, hv, not_lt]; exact hl.le
      have hs : sat32 M m = (M -. m) /. (lit 2 -. M -. m) := by unfold sat32; rw [if_pos hl]
      rw [lt_real half.close.fin L.close.fin, hv] at hl
      unfold q32
      rw [if_neg hl2]
      -- the divisor
      have a := NearF.two.sub' (C := 2) 2 (by norm_num) (NearF.unit hM)
        (by rw [abs_le]; constructor <;> linarith) (by norm_num)
      have D := a.sub' (C := 1.01) 1 (by norm_num) (NearF.unit hm)
        (by rw [abs_le]; constructor <;> linarith) (by norm_num)
      have De := abs_le.1 D.close.err
      have de := abs_le.1 dl.close.err
      norm_num at De
      set s := sat32 M m with hs'
      set x := M -. m
      set y := (lit 2 -. M -. m : F32)
      have yp : 0 < (y.val : ℝ) := by linarith
      have yp' : y.val ≠ 0 := by
        intro h; rw [h] at yp; simp at yp
      have xp : 0 < (x.val : ℝ) := by linarith
      have v0 : 0 < (x.val : ℝ) / y.val := div_pos xp yp
      have v1 : (x.val : ℝ) / y.val ≤ 1.02 := by
        rw [div_le_iff₀ yp]; linarith
      have v2 : (1 / 70000 : ℝ) ≤ (x.val : ℝ) / y.val := by
        rw [le_div_iff₀ yp]; linarith
      have ns : NearF s ((x.val : ℝ) / y.val) (1 / 16777216) 1.02 := by
        rw [hs]
        show NearF (FP.div x y) _ _ _
        rw [FP.div_fin dl.close.fin D.close.fin yp']
        exact (NearF.round (e := 0) 1 (by norm_num) (by push_cast; simp) (by rw [abs_of_pos v0]; exact v1)
          (by norm_num)).mono (by norm_num) le_rfl
      have se := abs_le.1 ns.close.err
      refine ⟨ne_zero32 ns.close.fin (by linarith), ?_⟩
      have ns' : NearF s s.val 0 1.03 := NearF.of_fin ns.close.fin (by rw [abs_le]; constructor <;> linarith)
      have b := L.add 2 (by norm_num) ns' (by norm_num)
      have c := L.mul 1 (by norm_num) ns' (by norm_num)
      have d := b.sub' (C := 3.1) 2 (by norm_num) c (by
        have e : ((M.val : ℝ) + m.val) / 2 + s.val - ((M.val : ℝ) + m.val) / 2 * s.val =
          ((M.val : ℝ) + m.val) / 2 + s.val * (1 - ((M.val : ℝ) + m.val) / 2) := by ring
        have h1 : 0 ≤ (s.val : ℝ) * (1 - ((M.val : ℝ) + m.val) / 2) := mul_nonneg (by linarith) (by linarith)
        have h2 : (s.val : ℝ) * (1 - ((M.val : ℝ) + m.val) / 2) ≤ s.val * 1 :=
          mul_le_mul_of_nonneg_left (by linarith) (by linarith)
        rw [e, abs_le]; constructor <;> linarith) (by norm_num)
      refine ⟨⟨d.close.fin, ?_⟩, by rw [abs_of_nonneg M0]; exact M1⟩
      have e := d.close.err
      have vy : (x.val : ℝ) / y.val * y.val = x.val := div_mul_cancel₀ _ yp.ne'
      set v := (x.val : ℝ) / y.val
      have f : |(s.val : ℝ) * (2 - M.val - m.val) - (M.val - m.val)| ≤ 6 / 16777216 := by
        have g : (s.val : ℝ) * (2 - M.val - m.val) - (M.val - m.val) =
          (s.val - v) * (2 - M.val - m.val) + v * ((2 - M.val - m.val) - y.val) + (v * y.val - (M.val - m.val)) := by ring
        rw [g, vy]
        have a1 : |((s.val : ℝ) - v) * (2 - M.val - m.val)| ≤ 1 / 16777216 * 1.01 := by
          rw [abs_mul]
          exact mul_le_mul ns.close.err (by rw [abs_le]; constructor <;> linarith) (abs_nonneg _) (by norm_num)
        have a2 : |v * ((2 - M.val - m.val) - y.val)| ≤ 1.02 * (3 / 16777216) := by
          rw [abs_mul]
          exact mul_le_mul (by rw [abs_of_pos v0]; exact v1) (by rw [abs_le]; constructor <;> linarith)
            (abs_nonneg _) (by norm_num)
        have a3 : |(x.val : ℝ) - (M.val - m.val)| ≤ 1 / 16777216 := dl.close.err.trans (by linarith)
        refine (abs_add_le _ _).trans ?_
        have := abs_add_le (((s.val : ℝ) - v) * (2 - M.val - m.val)) (v * ((2 - M.val - m.val) - y.val))
        norm_num at a1 a2 a3 this ⊢
        linarith
      rw [abs_le] at e f ⊢
      norm_num at e f ⊢
      constructor <;> nlinarith [e.1, e.2, f.1, f.2]
    · have hs : sat32 M m = (M -. m) /. (M +. m) := by unfold sat32; rw [if_neg hl]
      rw [lt_real half.close.fin L.close.fin, hv, not_lt] at hl
      have Sp : 0 < (M.val : ℝ) + m.val := by linarith
      have ns : NearF (sat32 M m) (((M.val : ℝ) - m.val) / (M.val + m.val)) (4 / 16777216) 1 := by
        rw [hs]; exact NearF.ratio Sp (dl.mono (by linarith) (by linarith)) S
      have sv : ((M.val : ℝ) - m.val) / (M.val + m.val) * (M.val + m.val) = M.val - m.val :=
        div_mul_cancel₀ _ Sp.ne'
      set s := sat32 M m
      set σ := ((M.val : ℝ) - m.val) / (M.val + m.val)
      have s0 : (1 / 70000 : ℝ) ≤ σ := by
        rw [le_div_iff₀ Sp]; linarith
      have se := abs_le.1 ns.close.err
      refine ⟨ne_zero32 ns.close.fin (by linarith), ?_⟩
      have L' : NearF ((M +. m) /. lit 2) (((M.val : ℝ) + m.val) / 2) (2 / 16777216) 0.51 :=
        ⟨L.close, by rw [abs_of_nonneg (by linarith)]; linarith⟩
      unfold q32
      by_cases hl2 : ((M +. m) /. lit 2 <. lit 0.5) = true
      · rw [if_pos hl2]
        have a := NearF.one.add 2 (by norm_num) ns (by norm_num)
        have b := L'.mul 1 (by norm_num) a (by norm_num)
        exact ⟨b.is (by linear_combination (1 / 2 : ℝ) * sv) (by norm_num), by rw [abs_of_nonneg M0]; exact M1⟩
      · rw [if_neg hl2]
        rw [lt_real L.close.fin half.close.fin, hv, not_lt] at hl2
        have a := L'.add 1 (by norm_num) ns (by norm_num)
        have b := L'.mul 0 (by norm_num) ns (by norm_num)
        have c := a.sub 2 (by norm_num) b (by norm_num)
        refine ⟨⟨c.close.fin, ?_⟩, by rw [abs_of_nonneg M0]; exact M1⟩
        have e := c.close.err
        have σ1 : σ ≤ 1 := (le_abs_self _).trans ns.le
        have f : |((M.val : ℝ) + m.val) / 2 + σ - (M.val + m.val) / 2 * σ - M.val| ≤ 4 / 16777216 := by
          have g : ((M.val : ℝ) + m.val) / 2 + σ - (M.val + m.val) / 2 * σ - M.val =
            σ * (1 - (M.val + m.val)) + (σ * (M.val + m.val) - (M.val - m.val)) / 2 := by ring
          rw [g, sv, sub_self, zero_div, add_zero, abs_mul]
          calc |σ| * |1 - ((M.val : ℝ) + m.val)| ≤ 1 * (4 / 16777216) :=
                mul_le_mul ns.le (by rw [abs_le]; constructor <;> linarith) (abs_nonneg _) zero_le_one
            _ = _ := by ring
        rw [abs_le] at e f ⊢
        norm_num at e f ⊢
        constructor <;> linarith [e.1, e.2, f.1, f.2]
  refine ⟨key.1, key.2, ?_⟩
  have a := NearF.two.mul 2 (by norm_num) L (by norm_num)
  have b := a.sub' (C := 1) 1 (by norm_num) key.2 (by rw [abs_le]; constructor <;> linarith) (by norm_num)
  exact ⟨b.is (by ring) (by norm_num), by rw [abs_of_nonneg m0]; exact m1⟩

/-! ## The greatest and the least channel -/

theorem max32 {c : Col F32} (h : UnitCol c) : In01 (Rgb.max c) ∧ (c.c0.val : ℝ) ≤ (Rgb.max c).val ∧
    (c.c1.val : ℝ) ≤ (Rgb.max c).val ∧ (c.c2.val : ℝ) ≤ (Rgb.max c).val ∧
    ((Rgb.max c).val = c.c0.val ∨ (Rgb.max c).val = c.c1.val ∨ (Rgb.max c).val = c.c2.val) := by
  obtain ⟨⟨f0, a0, b0⟩, ⟨f1, a1, b1⟩, ⟨f2, a2, b2⟩, -⟩ := h
  obtain ⟨x1, y1⟩ := NearF.max_fin (x := (lit 0 : F32)) (y := c.c0) FP.lit0.1 f0
  obtain ⟨x2, y2⟩ := NearF.max_fin x1 f1
  obtain ⟨x3, y3⟩ := NearF.max_fin x2 f2
  have e : (Rgb.max c).val = max (max c.c0.val c.c1.val) c.c2.val := by
    show (Scalar.max (Scalar.max (Scalar.max (lit 0) c.c0) c.c1) c.c2).val = _
    rw [y3, y2, y1, show (lit 0 : F32).val = 0 from FP.lit0.2, max_eq_right a0]
  refine ⟨⟨x3, ?_, ?_⟩, ?_, ?_, ?_, ?_⟩
  · rw [e]; exact a2.trans (le_max_right _ _)
  · rw [e]; exact max_le (max_le b0 b1) b2
  · rw [e]; exact_mod_cast (le_max_left _ _).trans (le_max_left _ _)
  · rw [e]; exact_mod_cast (le_max_right _ _).trans (le_max_left _ _)
  · rw [e]; exact_mod_cast le_max_right _ _
  · rw [e]
    rcases max_choice (max c.c0.val c.c1.val) c.c2.val with h | h
    · rcases max_choice c.c0.val c.c1.val with h' | h'
      · left; rw [h, h']
      · right; left; rw [h, h']
    · right; right; exact h

theorem min32 {c : Col F32} (h : UnitCol c) : In01 (Rgb.min c) ∧ ((Rgb.min c).val : ℝ) ≤ c.c0.val ∧
    ((Rgb.min c).val : ℝ) ≤ c.c1.val ∧ ((Rgb.min c).val : ℝ) ≤ c.c2.val ∧
    ((Rgb.min c).val = c.c0.val ∨ (Rgb.min c).val = c.c1.val ∨ (Rgb.min c).val = c.c2.val) := by
  obtain ⟨⟨f0, a0, b0⟩, ⟨f1, a1, b1⟩, ⟨f2, a2, b2⟩, -⟩ := h
  obtain ⟨x1, y1⟩ := NearF.min_fin (x := (lit 1 : F32)) (y := c.c0) FP.lit1.1 f0
  obtain ⟨x2, y2⟩ := NearF.min_fin x1 f1
  obtain ⟨x3, y3⟩ := NearF.min_fin x2 f2
  have e : (Rgb.min c).val = min (min c.c0.val c.c1.val) c.c2.val := by
    show (Scalar.min (Scalar.min (Scalar.min (lit 1) c.c0) c.c1) c.c2).val = _
    rw [y3, y2, y1, show (lit 1 : F32).val = 1 from FP.lit1.2, min_eq_right b0]
  refine ⟨⟨x3, ?_, ?_⟩, ?_, ?_, ?_, ?_⟩
  · rw [e]; exact le_min (le_min a0 a1) a2
  · rw [e]; exact (min_le_right _ _).trans b2
  · rw [e]; exact_mod_cast (min_le_left _ _).trans (min_le_left _ _)
  · rw [e]; exact_mod_cast (min_le_left _ _).trans (min_le_right _ _)
  · rw [e]; exact_mod_cast min_le_right _ _
  · rw [e]
    rcases min_choice (min c.c0.val c.c1.val) c.c2.val with h | h
    · rcases min_choice c.c0.val c.c1.val with h' | h'
      · left; rw [h, h']
      · right; left; rw [h, h']
    · right; right; exact h

theorem eps32 : (EPSILON : F32).fin = true ∧ ((EPSILON : F32).val : ℝ) = 1 / 32768 :=
  ⟨FP.epsilon.1, by rw [FP.epsilon.2]; norm_num⟩

/-- The test whether a difference is below EPSILON. -/
theorem below_eps {x y : F32} (hx : In01 x) (hy : In01 y) :
    ((x -. y) <. EPSILON) = true ↔ ((x -. y : F32).val : ℝ) < 1 / 32768 := by
  rw [lt_real (NearF.sub_rel hx hy).close.fin eps32.1, eps32.2]

theorem abs_sub32 {x y : F32} (hx : In01 x) (hy : In01 y) (hyx : (y.val : ℝ) ≤ x.val) :
    (Scalar.abs (x -. y)).fin = true ∧ ((Scalar.abs (x -. y) : F32).val : ℝ) = ((x -. y : F32).val : ℝ) := by
  have n := NearF.sub_rel hx hy
  have e : ((Scalar.abs (x -. y) : F32)).fin = true ∧ (Scalar.abs (x -. y) : F32).val = |(x -. y : F32).val| :=
    FP.abs_fin n.close.fin
  refine ⟨e.1, ?_⟩
  rw [e.2]; push_cast
  apply abs_of_nonneg
  have := abs_le.1 n.close.err
  rw [abs_of_nonneg (by linarith)] at this
  linarith

/-- A channel told to be within EPSILON of the greatest, when the least is not, is not the least. -/
theorem near_max {c : Col F32} {x : F32} (h : UnitCol c) (hx : In01 x) (hxM : (x.val : ℝ) ≤ (Rgb.max c).val)
    (hmx : ((Rgb.min c).val : ℝ) ≤ x.val)
    (hd : ¬ ((Rgb.max c -. Rgb.min c) <. EPSILON) = true)
    (hn : (Scalar.abs (Rgb.max c -. x) <. EPSILON) = true) : ((Rgb.min c).val : ℝ) < x.val := by
  obtain ⟨hM, -⟩ := max32 h
  obtain ⟨hm, -⟩ := min32 h
  have e := abs_sub32 hM hx hxM
  rw [lt_real e.1 eps32.1, eps32.2, e.2] at hn
  rw [below_eps hM hm, not_lt] at hd
  rcases lt_or_eq_of_le hmx with h' | h'
  · exact h'
  · exfalso
    have : (Rgb.max c -. Rgb.min c : F32).val = (Rgb.max c -. x : F32).val := by
      show (FP.sub _ _).val = (FP.sub _ _).val
      rw [FP.sub_fin hM.1 hm.1, FP.sub_fin hM.1 hx.1, show (Rgb.min c).val = x.val by exact_mod_cast h']
      have one : IsRep b32 1 ∧ (1 : ℚ) < pow2 b32.emax := by
        have := FP.int_finite (f := b32) 1 (by decide)
        simp only [Int.cast_one, abs_one] at this; exact this
      have hb : |(Rgb.max c).val - x.val| ≤ 1 := abs_le.2 ⟨by linarith [hM.2.1, hx.2.2], by linarith [hM.2.2, hx.2.1]⟩
      rw [(FP.ofRat_of_le one.1 one.2 hb).2, (FP.ofRat_of_le one.1 one.2 hb).2]
    rw [this] at hd; linarith

/-- The round trip of a colour that is not nearly gray. -/
theorem hsl_trip {c : Col F32} (h : UnitCol c) (hd : ¬ ((Rgb.max c -. Rgb.min c) <. EPSILON) = true) :
    ∃ R G B : F32, Hsl.to_rgb (Rgb.to_hsl c) = Rgb.new_with_alpha R G B c.alpha ∧
      (Close R c.c0.val (1 / 100000) ∨
        (Scalar.abs (Rgb.max c -. c.c0) <. EPSILON) = true ∧ Close R (Rgb.max c).val (1 / 100000)) ∧
      (Close G c.c1.val (1 / 100000) ∨
        (Scalar.abs (Rgb.max c -. c.c1) <. EPSILON) = true ∧ Close G (Rgb.max c).val (1 / 100000)) ∧
      Close B c.c2.val (1 / 100000) := by
  obtain ⟨hM, M0, M1, M2, Mc⟩ := max32 h
  obtain ⟨hm, m0, m1, m2, mc⟩ := min32 h
  have nr := fun x1 x2 x3 => near_max (x := c.c0) h x1 x2 x3 hd
  have ng := fun x1 x2 x3 => near_max (x := c.c1) h x1 x2 x3 hd
  have dl := NearF.sub_rel hM hm
  have hd1 : 1 / 32769 ≤ ((Rgb.max c).val : ℝ) - (Rgb.min c).val := by
    rw [below_eps hM hm, not_lt] at hd
    have := abs_le.1 dl.close.err
    rw [abs_of_nonneg (by linarith)] at this
    linarith
  obtain ⟨q1, q2, q3⟩ := q_near hM hm hd1
  have U0 : In01 c.c0 := h.c0
  have U1 : In01 c.c1 := h.c1
  have U2 : In01 c.c2 := h.c2
  set M := Rgb.max c
  set m := Rgb.min c
  set q := q32 ((M +. m) /. lit 2) (sat32 M m) with hq
  set p := lit 2 *. ((M +. m) /. lit 2) -. q with hp
  set D := (M.val : ℝ) - m.val with hD
  have Dp : 0 < D := by linarith
  -- three channels from a sector
  have go : ∀ (k : F32) (K : ℝ) (n : ℚ), NearF k K (4 / 16777216) 1 →
      ((FP.ofRat b32 false n).fin = true ∧ (FP.ofRat b32 false n).val = n) → 0 ≤ n → n ≤ 6 →
      0 ≤ K + n → K + n ≤ 6 →
      Close (Hsl.hue2rgb p q ((k +. lit n) /. lit 6 +. lit 1 /. lit 3)) (m.val + D * wheel ((K + n) / 6 + 1 / 3)) (1 / 100000) ∧
      Close (Hsl.hue2rgb p q ((k +. lit n) /. lit 6)) (m.val + D * wheel ((K + n) / 6)) (1 / 100000) ∧
      Close (Hsl.hue2rgb p q ((k +. lit n) /. lit 6 -. lit 1 /. lit 3)) (m.val + D * wheel ((K + n) / 6 - 1 / 3)) (1 / 100000) := by
    intro k K n hk hn n0 n6 K0 K6
    obtain ⟨t1, t2, t3⟩ := hue_near n hk hn n0 n6
    have r := fun {t : F32} {T : ℝ} (ht : Close t T (4 / 16777216)) => hue2rgb_near (t := t) (T := T) hm.real.1
      (m0.trans M0) hM.real.2 (e := 25 / 16777216) (by norm_num) q3 (q2.mono (by norm_num) le_rfl) ht (by norm_num)
    exact ⟨(r t1 (by linarith) (by linarith)).mono (by norm_num), (r t2 (by linarith) (by linarith)).mono (by norm_num),
      (r t3 (by linarith) (by linarith)).mono (by norm_num)⟩
  have unfold_rt : ∀ hue : F32, Hsl.to_rgb ⟨hue, sat32 M m, (M +. m) /. lit 2, c.alpha⟩ =
      Rgb.new_with_alpha (Hsl.hue2rgb p q (hue +. lit 1 /. lit 3)) (Hsl.hue2rgb p q hue)
        (Hsl.hue2rgb p q (hue -. lit 1 /. lit 3)) c.alpha := by
    intro hue
    unfold Hsl.to_rgb
    simp only
    rw [q1, if_neg (by simp)]
    rfl
  have tohsl : Rgb.to_hsl c = ⟨(if Scalar.abs (M -. c.c0) <. EPSILON then
        (c.c1 -. c.c2) /. (M -. m) +. (if c.c1 <. c.c2 then lit 6 else lit 0)
      else if Scalar.abs (M -. c.c1) <. EPSILON then (c.c2 -. c.c0) /. (M -. m) +. lit 2
      else (c.c0 -. c.c1) /. (M -. m) +. lit 4) /. lit 6, sat32 M m, (M +. m) /. lit 2, c.alpha⟩ := by
    unfold Rgb.to_hsl
    simp only
    rw [if_neg hd]
    rfl
  rw [tohsl, unfold_rt]
  refine ⟨_, _, _, rfl, ?_⟩
  have kap : ∀ {x y : F32}, In01 x → In01 y → (x.val : ℝ) ≤ M.val → (y.val : ℝ) ≤ M.val → (m.val : ℝ) ≤ x.val →
      (m.val : ℝ) ≤ y.val → NearF ((x -. y) /. (M -. m)) (((x.val : ℝ) - y.val) / D) (4 / 16777216) 1 ∧
        -1 ≤ ((x.val : ℝ) - y.val) / D ∧ ((x.val : ℝ) - y.val) / D ≤ 1 ∧
        D * (((x.val : ℝ) - y.val) / D) = x.val - y.val := by
    intro x y hx hy a b c' d'
    refine ⟨sector_near hx hy hM hm (by linarith) (by rw [abs_le]; constructor <;> linarith), ?_, ?_, ?_⟩
    · rw [le_div_iff₀ Dp]; linarith
    · rw [div_le_iff₀ Dp]; linarith
    · rw [mul_div_cancel₀ _ Dp.ne']
  have n0 : (FP.ofRat b32 false 0).fin = true ∧ (FP.ofRat b32 false 0).val = 0 := FP.lit0
  have n2 : (FP.ofRat b32 false 2).fin = true ∧ (FP.ofRat b32 false 2).val = 2 := by decide +kernel
  have n4 : (FP.ofRat b32 false 4).fin = true ∧ (FP.ofRat b32 false 4).val = 4 := by decide +kernel
  have n6 : (FP.ofRat b32 false 6).fin = true ∧ (FP.ofRat b32 false 6).val = 6 := by decide +kernel
  have Mc' : (M.val : ℝ) = c.c0.val ∨ (M.val : ℝ) = c.c1.val ∨ (M.val : ℝ) = c.c2.val := by exact_mod_cast Mc
  have mc' : (m.val : ℝ) = c.c0.val ∨ (m.val : ℝ) = c.c1.val ∨ (m.val : ℝ) = c.c2.val := by exact_mod_cast mc
  by_cases hr : (Scalar.abs (M -. c.c0) <. EPSILON) = true
  · simp only [if_pos hr]
    have hlt := nr U0 M0 m0 hr
    obtain ⟨k1, k2, k3, k4⟩ := kap U1 U2 M1 M2 m1 m2
    set K := ((c.c1.val : ℝ) - c.c2.val) / D with hK
    by_cases hgb : (c.c1 <. c.c2) = true
    · simp only [if_pos hgb]
      rw [lt_real U1.1 U2.1] at hgb
      have hm1 : (m.val : ℝ) = c.c1.val := by
        rcases mc' with e | e | e <;> linarith
      have K0 : K ≤ 0 := by
        rw [hK]; exact div_nonpos_of_nonpos_of_nonneg (by linarith) Dp.le
      obtain ⟨g1, g2, g3⟩ := go _ K 6 k1 n6 (by norm_num) (by norm_num) (by push_cast; linarith) (by push_cast; linarith)
      push_cast at g1 g2 g3
      obtain ⟨w1, w2, w3⟩ := wheel_red_neg k2 K0
      rw [w1] at g1; rw [w2] at g2; rw [w3] at g3
      refine ⟨Or.inr ⟨hr, g1.congr (by rw [hD]; ring)⟩, Or.inl (g2.congr (by rw [hm1]; ring)), g3.congr ?_⟩
      linear_combination hm1 - k4
    · simp only [if_neg hgb]
      rw [lt_real U1.1 U2.1, not_lt] at hgb
      have hm2 : (m.val : ℝ) = c.c2.val := by
        rcases mc' with e | e | e <;> linarith
      have K0 : 0 ≤ K := by
        rw [hK]; exact div_nonneg (by linarith) Dp.le
      obtain ⟨g1, g2, g3⟩ := go _ K 0 k1 n0 (by norm_num) (by norm_num) (by push_cast; linarith) (by push_cast; linarith)
      push_cast at g1 g2 g3
      rw [add_zero] at g1 g2 g3
      obtain ⟨w1, w2, w3⟩ := wheel_red_pos K0 k3
      rw [w1] at g1; rw [w2] at g2; rw [w3] at g3
      refine ⟨Or.inr ⟨hr, g1.congr (by rw [hD]; ring)⟩, Or.inl (g2.congr ?_), g3.congr (by rw [hm2]; ring)⟩
      linear_combination hm2 + k4
  · simp only [if_neg hr]
    by_cases hg : (Scalar.abs (M -. c.c1) <. EPSILON) = true
    · simp only [if_pos hg]
      have hlt := ng U1 M1 m1 hg
      obtain ⟨k1, k2, k3, k4⟩ := kap U2 U0 M2 M0 m2 m0
      set K := ((c.c2.val : ℝ) - c.c0.val) / D with hK
      obtain ⟨g1, g2, g3⟩ := go _ K 2 k1 n2 (by norm_num) (by norm_num) (by push_cast; linarith) (by push_cast; linarith)
      push_cast at g1 g2 g3
      obtain ⟨w1, w2, w3⟩ := wheel_green k2 k3
      rw [w1] at g1; rw [w2] at g2; rw [w3] at g3
      refine ⟨Or.inl (g1.congr ?_), Or.inr ⟨hg, g2.congr (by rw [hD]; ring)⟩, g3.congr ?_⟩
      · rcases le_total K 0 with h' | h'
        · have : (c.c2.val : ℝ) ≤ c.c0.val := by nlinarith
          have hm2 : (m.val : ℝ) = c.c2.val := by rcases mc' with e | e | e <;> linarith
          rw [max_eq_right (by linarith)]; linear_combination hm2 - k4
        · have : (c.c0.val : ℝ) ≤ c.c2.val := by nlinarith
          have hm2 : (m.val : ℝ) = c.c0.val := by rcases mc' with e | e | e <;> linarith
          rw [max_eq_left (by linarith)]; linear_combination hm2
      · rcases le_total K 0 with h' | h'
        · have : (c.c2.val : ℝ) ≤ c.c0.val := by nlinarith
          have hm2 : (m.val : ℝ) = c.c2.val := by rcases mc' with e | e | e <;> linarith
          rw [max_eq_left (by linarith)]; linear_combination hm2
        · have : (c.c0.val : ℝ) ≤ c.c2.val := by nlinarith
          have hm2 : (m.val : ℝ) = c.c0.val := by rcases mc' with e | e | e <;> linarith
          rw [max_eq_right (by linarith)]; linear_combination hm2 + k4
    · simp only [if_neg hg]
      have neq : ∀ {x : F32}, In01 x → (x.val : ℝ) ≤ M.val → ¬ (Scalar.abs (M -. x) <. EPSILON) = true →
          (M.val : ℝ) ≠ x.val := by
        intro x hx hxM hn he
        apply hn
        have e := abs_sub32 hM hx hxM
        rw [lt_real e.1 eps32.1, eps32.2, e.2]
        have := (NearF.sub_rel hM hx).close.err
        rw [he, sub_self, abs_zero, zero_div, sub_zero] at this
        rw [abs_nonpos_iff.1 this]; norm_num
      have hB : (M.val : ℝ) = c.c2.val := by
        rcases Mc' with e | e | e
        · exact absurd e (neq U0 M0 hr)
        · exact absurd e (neq U1 M1 hg)
        · exact e
      obtain ⟨k1, k2, k3, k4⟩ := kap U0 U1 M0 M1 m0 m1
      set K := ((c.c0.val : ℝ) - c.c1.val) / D with hK
      obtain ⟨g1, g2, g3⟩ := go _ K 4 k1 n4 (by norm_num) (by norm_num) (by push_cast; linarith) (by push_cast; linarith)
      push_cast at g1 g2 g3
      obtain ⟨w1, w2, w3⟩ := wheel_blue k2 k3
      rw [w1] at g1; rw [w2] at g2; rw [w3] at g3
      refine ⟨Or.inl (g1.congr ?_), Or.inl (g2.congr ?_), g3.congr (by rw [hD]; linear_combination hB)⟩
      · rcases le_total K 0 with h' | h'
        · have : (c.c0.val : ℝ) ≤ c.c1.val := by nlinarith
          have hm2 : (m.val : ℝ) = c.c0.val := by rcases mc' with e | e | e <;> linarith
          rw [max_eq_left (by linarith)]; linear_combination hm2
        · have : (c.c1.val : ℝ) ≤ c.c0.val := by nlinarith
          have hm2 : (m.val : ℝ) = c.c1.val := by rcases mc' with e | e | e <;> linarith
          rw [max_eq_right (by linarith)]; linear_combination hm2 + k4
      · rcases le_total K 0 with h' | h'
        · have : (c.c0.val : ℝ) ≤ c.c1.val := by nlinarith
          have hm2 : (m.val : ℝ) = c.c0.val := by rcases mc' with e | e | e <;> linarith
          rw [max_eq_right (by linarith)]; linear_combination hm2 - k4
        · have : (c.c1.val : ℝ) ≤ c.c0.val := by nlinarith
          have hm2 : (m.val : ℝ) = c.c1.val := by rcases mc' with e | e | e <;> linarith
          rw [max_eq_left (by linarith)]; linear_combination hm2

end D10
