import Verif.Lemmas.HslTrip
import Verif.Props.HslFloat

/-!
# Lemmas about taking away saturation with 32-bit numbers (C133)
-/

namespace D10
open Spec
open Scalar (lit)

variable [Libm b32]

/-- The hue of a colour that is not nearly gray, as a position on the wheel of the three channels. -/
theorem hue_parts {c : Col F32} (h : UnitCol c) (hd : ¬ ((Rgb.max c -. Rgb.min c) <. EPSILON) = true) :
    ∃ (hue : F32) (H : ℝ), Rgb.to_hsl c = ⟨hue, sat32 (Rgb.max c) (Rgb.min c), (Rgb.max c +. Rgb.min c) /. lit 2, c.alpha⟩ ∧
      0 ≤ H ∧ H ≤ 1 ∧
      Close (hue +. lit 1 /. lit 3) (H + 1 / 3) (4 / 16777216) ∧ Close hue H (4 / 16777216) ∧
      Close (hue -. lit 1 /. lit 3) (H - 1 / 3) (4 / 16777216) ∧
      ((Rgb.min c).val + ((Rgb.max c).val - (Rgb.min c).val : ℝ) * wheel (H + 1 / 3) = c.c0.val ∨
        (Scalar.abs (Rgb.max c -. c.c0) <. EPSILON) = true ∧
        (Rgb.min c).val + ((Rgb.max c).val - (Rgb.min c).val : ℝ) * wheel (H + 1 / 3) = (Rgb.max c).val) ∧
      ((Rgb.min c).val + ((Rgb.max c).val - (Rgb.min c).val : ℝ) * wheel H = c.c1.val ∨
        (Scalar.abs (Rgb.max c -. c.c1) <. EPSILON) = true ∧
        (Rgb.min c).val + ((Rgb.max c).val - (Rgb.min c).val : ℝ) * wheel H = (Rgb.max c).val) ∧
      (Rgb.min c).val + ((Rgb.max c).val - (Rgb.min c).val : ℝ) * wheel (H - 1 / 3) = c.c2.val := by
  obtain ⟨hM, M0, M1, M2, Mc⟩ := max32 h
  obtain ⟨hm, m0, m1, m2, mc⟩ := min32 h
  have nr := fun x1 x2 x3 => near_max (x := c.c0) h x1 x2 x3 hd
  have ng := fun x1 x2 x3 => near_max (x := c.c1) h x1 x2 x3 hd
  have dl := NearF.sub_rel hM hm
  have hd1 : 1 / 32769 ≤ ((Rgb.max c).val : ℝ) - (Rgb.min c).val := by
    rw [below_eps hM hm, not_lt] at hd
    have := abs_le.1 dl.close.err
    rw [abs_of_nonneg (by linarith)] at this
    linarith
  have U0 : In01 c.c0 := h.c0
  have U1 : In01 c.c1 := h.c1
  have U2 : In01 c.c2 := h.c2
  set M := Rgb.max c
  set m := Rgb.min c
  set D := (M.val : ℝ) - m.val with hD
  have Dp : 0 < D := by linarith
  have go : ∀ (k : F32) (K : ℝ) (n : ℚ), NearF k K (4 / 16777216) 1 →
      ((FP.ofRat b32 false n).fin = true ∧ (FP.ofRat b32 false n).val = n) → 0 ≤ n → n ≤ 6 →
      Close ((k +. lit n) /. lit 6 +. lit 1 /. lit 3) ((K + n) / 6 + 1 / 3) (4 / 16777216) ∧
      Close ((k +. lit n) /. lit 6) ((K + n) / 6) (4 / 16777216) ∧
      Close ((k +. lit n) /. lit 6 -. lit 1 /. lit 3) ((K + n) / 6 - 1 / 3) (4 / 16777216) :=
    fun k K n hk hn n0 n6 => hue_near n hk hn n0 n6
  have tohsl : Rgb.to_hsl c = ⟨(if Scalar.abs (M -. c.c0) <. EPSILON then
        (c.c1 -. c.c2) /. (M -. m) +. (if c.c1 <. c.c2 then lit 6 else lit 0)
      else if Scalar.abs (M -. c.c1) <. EPSILON then (c.c2 -. c.c0) /. (M -. m) +. lit 2
      else (c.c0 -. c.c1) /. (M -. m) +. lit 4) /. lit 6, sat32 M m, (M +. m) /. lit 2, c.alpha⟩ := by
    unfold Rgb.to_hsl
    simp only
    rw [if_neg hd]
    rfl
  rw [tohsl]
  have kap : ∀ {x y : F32}, In01 x → In01 y → (x.val : ℝ) ≤ M.val → (y.val : ℝ) ≤ M.val → (m.val : ℝ) ≤ x.val →
      (m.val : ℝ) ≤ y.val → NearF ((x -. y) /. (M -. m)) (((x.val : ℝ) - y.val) / D) (4 / 16777216) 1 ∧
        -1 ≤ ((x.val : ℝ) - y.val) / D ∧ ((x.val : ℝ) - y.val) / D ≤ 1 ∧
        D * (((x.val : ℝ) - y.val) / D) = x.val - y.val := by
    intro x y hx hy a b c' d'
    refine ⟨sector_near hx hy hM hm (by linarith) (by rw [abs_le]; constructor <;> linarith), ?_, ?_, ?_⟩
    · rw [le_div_iff₀ Dp]; linarith
    · rw [div_le_iff₀ Dp]; linarith
    · rw [mul_div_cancel₀ _ Dp.ne']
  have n0 : (FP.ofRat b32 false 0).fin = true ∧ (FP.ofRat b32 false 0).val = 0 := FP.lit0
  have n2 : (FP.ofRat b32 false 2).fin = true ∧ (FP.ofRat b32 false 2).val = 2 := by decide +kernel
  have n4 : (FP.ofRat b32 false 4).fin = true ∧ (FP.ofRat b32 false 4).val = 4 := by decide +kernel
  have n6 : (FP.ofRat b32 false 6).fin = true ∧ (FP.ofRat b32 false 6).val = 6 := by decide +kernel
  have Mc' : (M.val : ℝ) = c.c0.val ∨ (M.val : ℝ) = c.c1.val ∨ (M.val : ℝ) = c.c2.val := by exact_mod_cast Mc
  have mc' : (m.val : ℝ) = c.c0.val ∨ (m.val : ℝ) = c.c1.val ∨ (m.val : ℝ) = c.c2.val := by exact_mod_cast mc
  by_cases hr : (Scalar.abs (M -. c.c0) <. EPSILON) = true
  · simp only [if_pos hr]
    have hlt := nr U0 M0 m0 hr
    obtain ⟨k1, k2, k3, k4⟩ := kap U1 U2 M1 M2 m1 m2
    set K := ((c.c1.val : ℝ) - c.c2.val) / D with hK
    by_cases hgb : (c.c1 <. c.c2) = true
    · simp only [if_pos hgb]
      rw [lt_real U1.1 U2.1] at hgb
      have hm1 : (m.val : ℝ) = c.c1.val := by
        rcases mc' with e | e | e <;> linarith
      have K0 : K ≤ 0 := by
        rw [hK]; exact div_nonpos_of_nonpos_of_nonneg (by linarith) Dp.le
      obtain ⟨g1, g2, g3⟩ := go _ K 6 k1 n6 (by norm_num) (by norm_num)
      push_cast at g1 g2 g3
      obtain ⟨w1, w2, w3⟩ := wheel_red_neg k2 K0
      refine ⟨_, _, rfl, by linarith, by linarith, g1, g2, g3, Or.inr ⟨hr, by rw [w1, hD]; ring⟩, Or.inl (by rw [w2, hm1]; ring), ?_⟩
      rw [w3]
      linear_combination hm1 - k4
    · simp only [if_neg hgb]
      rw [lt_real U1.1 U2.1, not_lt] at hgb
      have hm2 : (m.val : ℝ) = c.c2.val := by
        rcases mc' with e | e | e <;> linarith
      have K0 : 0 ≤ K := by
        rw [hK]; exact div_nonneg (by linarith) Dp.le
      obtain ⟨g1, g2, g3⟩ := go _ K 0 k1 n0 (by norm_num) (by norm_num)
      push_cast at g1 g2 g3
      rw [add_zero] at g1 g2 g3
      obtain ⟨w1, w2, w3⟩ := wheel_red_pos K0 k3
      refine ⟨_, _, rfl, by linarith, by linarith, g1, g2, g3, Or.inr ⟨hr, by rw [w1, hD]; ring⟩, Or.inl ?_, by rw [w3, hm2]; ring⟩
      rw [w2]
      linear_combination hm2 + k4
  · simp only [if_neg hr]
    by_cases hg : (Scalar.abs (M -. c.c1) <. EPSILON) = true
    · simp only [if_pos hg]
      have hlt := ng U1 M1 m1 hg
      obtain ⟨k1, k2, k3, k4⟩ := kap U2 U0 M2 M0 m2 m0
      set K := ((c.c2.val : ℝ) - c.c0.val) / D with hK
      obtain ⟨g1, g2, g3⟩ := go _ K 2 k1 n2 (by norm_num) (by norm_num)
      push_cast at g1 g2 g3
      obtain ⟨w1, w2, w3⟩ := wheel_green k2 k3
      refine ⟨_, _, rfl, by linarith, by linarith, g1, g2, g3, Or.inl ?_, Or.inr ⟨hg, by rw [w2, hD]; ring⟩, ?_⟩ <;> [rw [w1]; rw [w3]]
      · rcases le_total K 0 with h' | h'
        · have : (c.c2.val : ℝ) ≤ c.c0.val := by nlinarith
          have hm2 : (m.val : ℝ) = c.c2.val := by rcases mc' with e | e | e <;> linarith
          rw [max_eq_right (by linarith)]; linear_combination hm2 - k4
        · have : (c.c0.val : ℝ) ≤ c.c2.val := by nlinarith
          have hm2 : (m.val : ℝ) = c.c0.val := by rcases mc' with e | e | e <;> linarith
          rw [max_eq_left (by linarith)]; linear_combination hm2
      · rcases le_total K 0 with h' | h'
        · have : (c.c2.val : ℝ) ≤ c.c0.val := by nlinarith
          have hm2 : (m.val : ℝ) = c.c2.val := by rcases mc' with e | e | e <;> linarith
          rw [max_eq_left (by linarith)]; linear_combination hm2
        · have : (c.c0.val : ℝ) ≤ c.c2.val := by nlinarith
          have hm2 : (m.val : ℝ) = c.c0.val := by rcases mc' with e | e | e <;> linarith
          rw [max_eq_right (by linarith)]; linear_combination hm2 + k4
    · simp only [if_neg hg]
      have neq : ∀ {x : F32}, In01 x → (x.val : ℝ) ≤ M.val → ¬ (Scalar.abs (M -. x) <. EPSILON) = true →
          (M.val : ℝ) ≠ x.val := by
        intro x hx hxM hn he
        apply hn
        have e := abs_sub32 hM hx hxM
        rw [lt_real e.1 eps32.1, eps32.2, e.2]
        have := (NearF.sub_rel hM hx).close.err
        rw [he, sub_self, abs_zero, zero_div, sub_zero] at this
        rw [abs_nonpos_iff.1 this]; norm_num
      have hB : (M.val : ℝ) = c.c2.val := by
        rcases Mc' with e | e | e
        · exact absurd e (neq U0 M0 hr)
        · exact absurd e (neq U1 M1 hg)
        · exact e
      obtain ⟨k1, k2, k3, k4⟩ := kap U0 U1 M0 M1 m0 m1
      set K := ((c.c0.val : ℝ) - c.c1.val) / D with hK
      obtain ⟨g1, g2, g3⟩ := go _ K 4 k1 n4 (by norm_num) (by norm_num)
      push_cast at g1 g2 g3
      obtain ⟨w1, w2, w3⟩ := wheel_blue k2 k3
      refine ⟨_, _, rfl, by linarith, by linarith, g1, g2, g3, Or.inl ?_, Or.inl ?_, by rw [w3, hD]; linear_combination hB⟩ <;> [rw [w1]; rw [w2]]
      · rcases le_total K 0 with h' | h'
        · have : (c.c0.val : ℝ) ≤ c.c1.val := by nlinarith
          have hm2 : (m.val : ℝ) = c.c0.val := by rcases mc' with e | e | e <;> linarith
          rw [max_eq_left (by linarith)]; linear_combination hm2
        · have : (c.c1.val : ℝ) ≤ c.c0.val := by nlinarith
          have hm2 : (m.val : ℝ) = c.c1.val := by rcases mc' with e | e | e <;> linarith
          rw [max_eq_right (by linarith)]; linear_combination hm2 + k4
      · rcases le_total K 0 with h' | h'
        · have : (c.c0.val : ℝ) ≤ c.c1.val := by nlinarith
          have hm2 : (m.val : ℝ) = c.c0.val := by rcases mc' with e | e | e <;> linarith
          rw [max_eq_right (by linarith)]; linear_combination hm2 - k4
        · have : (c.c1.val : ℝ) ≤ c.c0.val := by nlinarith
          have hm2 : (m.val : ℝ) = c.c1.val := by rcases mc' with e | e | e <;> linarith
          rw [max_eq_left (by linarith)]; linear_combination hm2

theorem clamp_real {x : F32} (h : x.fin = true) : In01 (clamp01 x) ∧ ((clamp01 x).val : ℝ) = max 0 (min 1 (x.val : ℝ)) := by
  obtain ⟨a, b⟩ := NearF.clamp_fin h
  refine ⟨⟨a, by rw [b]; exact le_max_left _ _, by rw [b]; exact max_le zero_le_one (min_le_left _ _)⟩, ?_⟩
  rw [b]; push_cast; rfl

set_option maxHeartbeats 1000000 in
/-- The greatest and the least channel after a part `k` of the saturation is kept. -/
theorem q_kept {M m k : F32} (hM : In01 M) (hm : In01 m) (hk : In01 k) (hd : 1 / 32769 ≤ (M.val : ℝ) - m.val) :
    (((clamp01 (sat32 M m *. k) ==. lit 0) = true → (k.val : ℝ) * (M.val - m.val) ≤ 10 / 16777216)) ∧
    NearF ((M +. m) /. lit 2) (((M.val : ℝ) + m.val) / 2) (2 / 16777216) 1 ∧
    NearF (q32 ((M +. m) /. lit 2) (clamp01 (sat32 M m *. k))) (((M.val : ℝ) + m.val) / 2 + k.val * (M.val - m.val) / 2)
      (21 / 16777216) 1 ∧
    NearF (lit 2 *. ((M +. m) /. lit 2) -. q32 ((M +. m) /. lit 2) (clamp01 (sat32 M m *. k)))
      (((M.val : ℝ) + m.val) / 2 - k.val * (M.val - m.val) / 2) (28 / 16777216) 1 := by
  obtain ⟨M0, M1⟩ := hM.real
  obtain ⟨m0, m1⟩ := hm.real
  obtain ⟨k0, k1⟩ := hk.real
  have nk := NearF.unit hk
  have S := NearF.add_rel hM hm
  have dl := NearF.sub_rel hM hm
  rw [abs_of_pos (by linarith : 0 < (M.val : ℝ) - m.val)] at dl
  have L : NearF ((M +. m) /. lit 2) (((M.val : ℝ) + m.val) / 2) (2 / 16777216) 1 :=
    ((S.mono (d := 2 / 16777216) (B := 2) (by linarith) (by linarith)).div 1 (by norm_num) NearF.two
      (m := 2) (by norm_num) (by norm_num) (by norm_num)).mono (by norm_num) (by norm_num)
  have half := NearF.half
  have hv : ((lit 0.5 : F32).val : ℝ) = 1 / 2 := by
    have := half.close.err
    linarith [abs_nonpos_iff.1 this]
  have lerr := abs_le.1 L.close.err
  have kD0 : 0 ≤ (k.val : ℝ) * (M.val - m.val) := mul_nonneg k0 (by linarith)
  have kD1 : (k.val : ℝ) * (M.val - m.val) ≤ M.val - m.val := by nlinarith
  have Q1 : |((M.val : ℝ) + m.val) / 2 + k.val * (M.val - m.val) / 2| ≤ 1 := by
    rw [abs_le]; constructor <;> linarith
  have P1 : |((M.val : ℝ) + m.val) / 2 - k.val * (M.val - m.val) / 2| ≤ 1 := by
    rw [abs_le]; constructor <;> linarith
  have zero : ∀ {x : F32}, In01 x → (x ==. lit 0) = true → (x.val : ℝ) = 0 := by
    intro x hx h
    rcases eq_or_lt_of_le hx.real.1 with e | e
    · exact e.symm
    · rw [ne_zero32 hx.1 e] at h; exact absurd h (by simp)
  have key : (((clamp01 (sat32 M m *. k) ==. lit 0) = true → (k.val : ℝ) * (M.val - m.val) ≤ 10 / 16777216)) ∧
      NearF (q32 ((M +. m) /. lit 2) (clamp01 (sat32 M m *. k))) (((M.val : ℝ) + m.val) / 2 + k.val * (M.val - m.val) / 2)
        (21 / 16777216) 1 := by
    by_cases hl : (lit 0.5 <. (M +. m) /. lit 2) = true
    · have hl2 : ¬ ((M +. m) /. lit 2 <. lit 0.5) = true := by
        rw [lt_real half.close.fin L.close.fin, hv] at hl
        rw [lt_real L.close.fin half.close.fin, hv, not_lt]; exact hl.le
      have hs : sat32 M m = (M -. m) /. (lit 2 -. M -. m) := by unfold sat32; rw [if_pos hl]
      rw [lt_real half.close.fin L.close.fin, hv] at hl
      unfold q32
      rw [if_neg hl2]
      -- the divisor
      have a := NearF.two.sub' (C := 2) 2 (by norm_num) (NearF.unit hM)
        (by rw [abs_le]; constructor <;> linarith) (by norm_num)
      have D := a.sub' (C := 1.01) 1 (by norm_num) (NearF.unit hm)
        (by rw [abs_le]; constructor <;> linarith) (by norm_num)
      have De := abs_le.1 D.close.err
      have de := abs_le.1 dl.close.err
      norm_num at De
      set s := sat32 M m with hs'
      set x := M -. m
      set y := (lit 2 -. M -. m : F32)
      have yp : 0 < (y.val : ℝ) := by linarith
      have yp' : y.val ≠ 0 := by
        intro h; rw [h] at yp; simp at yp
      have xp : 0 < (x.val : ℝ) := by linarith
      have v0 : 0 < (x.val : ℝ) / y.val := div_pos xp yp
      have v1 : (x.val : ℝ) / y.val ≤ 1.02 := by
        rw [div_le_iff₀ yp]; linarith
      have v2 : (1 / 70000 : ℝ) ≤ (x.val : ℝ) / y.val := by
        rw [le_div_iff₀ yp]; linarith
      have ns : NearF s ((x.val : ℝ) / y.val) (1 / 16777216) 1.02 := by
        rw [hs]
        show NearF (FP.div x y) _ _ _
        rw [FP.div_fin dl.close.fin D.close.fin yp']
        exact (NearF.round (e := 0) 1 (by norm_num) (by push_cast; simp) (by rw [abs_of_pos v0]; exact v1)
          (by norm_num)).mono (by norm_num) le_rfl
      have se := abs_le.1 ns.close.err
      have ns' : NearF s s.val 0 1.03 := NearF.of_fin ns.close.fin (by rw [abs_le]; constructor <;> linarith)
      have vy : (x.val : ℝ) / y.val * y.val = x.val := div_mul_cancel₀ _ yp.ne'
      set v := (x.val : ℝ) / y.val
      have f : |(s.val : ℝ) * (2 - M.val - m.val) - (M.val - m.val)| ≤ 6 / 16777216 := by
        have g : (s.val : ℝ) * (2 - M.val - m.val) - (M.val - m.val) =
          (s.val - v) * (2 - M.val - m.val) + v * ((2 - M.val - m.val) - y.val) + (v * y.val - (M.val - m.val)) := by ring
        rw [g, vy]
        have a1 : |((s.val : ℝ) - v) * (2 - M.val - m.val)| ≤ 1 / 16777216 * 1.01 := by
          rw [abs_mul]
          exact mul_le_mul ns.close.err (by rw [abs_le]; constructor <;> linarith) (abs_nonneg _) (by norm_num)
        have a2 : |v * ((2 - M.val - m.val) - y.val)| ≤ 1.02 * (3 / 16777216) := by
          rw [abs_mul]
          exact mul_le_mul (by rw [abs_of_pos v0]; exact v1) (by rw [abs_le]; constructor <;> linarith)
            (abs_nonneg _) (by norm_num)
        have a3 : |(x.val : ℝ) - (M.val - m.val)| ≤ 1 / 16777216 := dl.close.err.trans (by linarith)
        refine (abs_add_le _ _).trans ?_
        have := abs_add_le (((s.val : ℝ) - v) * (2 - M.val - m.val)) (v * ((2 - M.val - m.val) - y.val))
        norm_num at a1 a2 a3 this ⊢
        linarith
      -- the part that is kept
      have nt := ns'.mul 1 (by norm_num) nk (by norm_num)
      obtain ⟨cu, cv⟩ := clamp_real nt.close.fin
      set W := (2 : ℝ) - M.val - m.val with hW
      have W0 : 0 ≤ W := by linarith
      have W1 : W ≤ 1.01 := by linarith
      have ft : |((s *. k : F32).val : ℝ) * W - k.val * (M.val - m.val)| ≤ 8 / 16777216 := by
        have g : ((s *. k : F32).val : ℝ) * W - k.val * (M.val - m.val) =
          ((s *. k : F32).val - s.val * k.val) * W + k.val * (s.val * W - (M.val - m.val)) := by ring
        rw [g]
        have a1 : |(((s *. k : F32).val : ℝ) - s.val * k.val) * W| ≤ 1 / 16777216 * 1.01 := by
          rw [abs_mul]
          exact mul_le_mul (nt.close.err.trans (by norm_num)) (by rw [abs_of_nonneg W0]; exact W1) (abs_nonneg _) (by norm_num)
        have a2 : |(k.val : ℝ) * (s.val * W - (M.val - m.val))| ≤ 1 * (6 / 16777216) := by
          rw [abs_mul]
          exact mul_le_mul (by rw [abs_of_nonneg k0]; exact k1) f (abs_nonneg _) (by norm_num)
        refine (abs_add_le _ _).trans ?_
        norm_num at a1 a2 ⊢
        linarith
      have fs : |((clamp01 (s *. k) : F32).val : ℝ) * W - k.val * (M.val - m.val)| ≤ 8 / 16777216 := by
        rw [cv]
        have kW : (k.val : ℝ) * (M.val - m.val) ≤ W := by linarith
        rw [abs_le] at ft ⊢
        rcases le_total 1 ((s *. k : F32).val : ℝ) with h1 | h1
        · rw [min_eq_left h1, max_eq_right zero_le_one]
          constructor
          · linarith
          · nlinarith
        · rw [min_eq_right h1]
          rcases le_total 0 ((s *. k : F32).val : ℝ) with h2 | h2
          · rw [max_eq_right h2]; exact ft
          · rw [max_eq_left h2]
            constructor
            · nlinarith
            · linarith
      refine ⟨fun hz => ?_, ?_⟩
      · have := zero cu hz
        rw [this, zero_mul, zero_sub, abs_neg, abs_of_nonneg kD0] at fs
        linarith
      obtain ⟨c0, c1⟩ := cu.real
      set z : F32 := clamp01 (s *. k) with hz
      have nz : NearF z z.val 0 1 := NearF.unit cu
      have b := L.add 2 (by norm_num) nz (by norm_num)
      have c := L.mul 1 (by norm_num) nz (by norm_num)
      have d := b.sub' (C := 3.1) 2 (by norm_num) c (by
        have e : ((M.val : ℝ) + m.val) / 2 + z.val - ((M.val : ℝ) + m.val) / 2 * z.val =
          ((M.val : ℝ) + m.val) / 2 + z.val * (1 - ((M.val : ℝ) + m.val) / 2) := by ring
        have h1 : 0 ≤ (z.val : ℝ) * (1 - ((M.val : ℝ) + m.val) / 2) := mul_nonneg (by linarith) (by linarith)
        have h2 : (z.val : ℝ) * (1 - ((M.val : ℝ) + m.val) / 2) ≤ z.val * 1 :=
          mul_le_mul_of_nonneg_left (by linarith) (by linarith)
        rw [e, abs_le]; constructor <;> linarith) (by norm_num)
      refine ⟨⟨d.close.fin, ?_⟩, Q1⟩
      have e := d.close.err
      rw [abs_le] at e fs ⊢
      rw [hW] at fs
      norm_num at e fs ⊢
      constructor <;> nlinarith [e.1, e.2, fs.1, fs.2]
    · have hs : sat32 M m = (M -. m) /. (M +. m) := by unfold sat32; rw [if_neg hl]
      rw [lt_real half.close.fin L.close.fin, hv, not_lt] at hl
      have Sp : 0 < (M.val : ℝ) + m.val := by linarith
      have ns : NearF (sat32 M m) (((M.val : ℝ) - m.val) / (M.val + m.val)) (4 / 16777216) 1 := by
        rw [hs]; exact NearF.ratio Sp (dl.mono (by linarith) (by linarith)) S
      have sv : ((M.val : ℝ) - m.val) / (M.val + m.val) * (M.val + m.val) = M.val - m.val :=
        div_mul_cancel₀ _ Sp.ne'
      set s := sat32 M m
      set σ := ((M.val : ℝ) - m.val) / (M.val + m.val)
      have σ0 : 0 ≤ σ := div_nonneg (by linarith) Sp.le
      have σ1 : σ ≤ 1 := (le_abs_self _).trans ns.le
      have nt := ns.mul 1 (by norm_num) nk (by norm_num)
      have kσ0 : 0 ≤ σ * k.val := mul_nonneg σ0 k0
      have kσ1 : σ * k.val ≤ 1 := mul_le_one₀ σ1 k0 k1
      have nz : NearF (clamp01 (s *. k)) (σ * k.val) (5 / 16777216) 1 :=
        ⟨(clamp_close nt.close kσ0 kσ1).mono (by norm_num), by rw [abs_of_nonneg kσ0]; exact kσ1⟩
      obtain ⟨cu, -⟩ := clamp_real nt.close.fin
      have L' : NearF ((M +. m) /. lit 2) (((M.val : ℝ) + m.val) / 2) (2 / 16777216) 0.51 :=
        ⟨L.close, by rw [abs_of_nonneg (by linarith)]; linarith⟩
      refine ⟨fun hz => ?_, ?_⟩
      · have h0 := zero cu hz
        have e := nz.close.err
        rw [h0, zero_sub, abs_neg, abs_of_nonneg kσ0] at e
        have : (k.val : ℝ) * (M.val - m.val) = σ * k.val * (M.val + m.val) := by rw [← sv]; ring
        rw [this]
        calc σ * k.val * ((M.val : ℝ) + m.val) ≤ 5 / 16777216 * 2 :=
              mul_le_mul e (by linarith) Sp.le (by norm_num)
          _ = _ := by norm_num
      unfold q32
      by_cases hl2 : ((M +. m) /. lit 2 <. lit 0.5) = true
      · rw [if_pos hl2]
        have a := NearF.one.add 2 (by norm_num) nz (by norm_num)
        have b := L'.mul 1 (by norm_num) a (by norm_num)
        exact ⟨b.is (by linear_combination (k.val / 2 : ℝ) * sv) (by norm_num), Q1⟩
      · rw [if_neg hl2]
        rw [lt_real L.close.fin half.close.fin, hv, not_lt] at hl2
        have a := L'.add 1 (by norm_num) nz (by norm_num)
        have b := L'.mul 0 (by norm_num) nz (by norm_num)
        have c := a.sub 2 (by norm_num) b (by norm_num)
        refine ⟨⟨c.close.fin, ?_⟩, Q1⟩
        have e := c.close.err
        have f : |((M.val : ℝ) + m.val) / 2 + σ * k.val - (M.val + m.val) / 2 * (σ * k.val) -
            (((M.val : ℝ) + m.val) / 2 + k.val * (M.val - m.val) / 2)| ≤ 4 / 16777216 := by
          have g : ((M.val : ℝ) + m.val) / 2 + σ * k.val - (M.val + m.val) / 2 * (σ * k.val) -
              (((M.val : ℝ) + m.val) / 2 + k.val * (M.val - m.val) / 2) =
            σ * k.val * (1 - (M.val + m.val)) + k.val * (σ * (M.val + m.val) - (M.val - m.val)) / 2 := by ring
          rw [g, sv, sub_self, mul_zero, zero_div, add_zero, abs_mul]
          calc |σ * k.val| * |1 - ((M.val : ℝ) + m.val)| ≤ 1 * (4 / 16777216) :=
                mul_le_mul nz.le (by rw [abs_le]; constructor <;> linarith) (abs_nonneg _) zero_le_one
            _ = _ := by ring
        rw [abs_le] at e f ⊢
        norm_num at e f ⊢
        constructor <;> linarith [e.1, e.2, f.1, f.2]
  refine ⟨key.1, L, key.2, ?_⟩
  have a := NearF.two.mul 2 (by norm_num) L (by norm_num)
  have b := a.sub' (C := 1) 1 (by norm_num) key.2 (by
    rw [abs_le]; constructor <;> linarith) (by norm_num)
  exact ⟨b.is (by ring) (by norm_num), P1⟩

end D10
