import Verif.Props.Resample
import Mathlib.Analysis.Real.Pi.Bounds
import Mathlib.Analysis.SpecialFunctions.Trigonometric.Bounds

/-!
# The Lanczos filters do not preserve brightness (C90), and directions the samplers prefer (C88)
-/

namespace D10
open Spec PixelBuffer
open Scalar (lit)

section
variable [Junk]

/-- The constant the code uses for π. -/
noncomputable def piC : ℝ := 3.14159265358979323846264338327950288

omit [Junk] in
theorem sin_piC {k : ℝ} (h0 : 0 ≤ k) (h1 : k ≤ 3) : |Real.sin (k * piC) - Real.sin (k * Real.pi)| ≤ 1e-18 := by
  refine (Real.abs_sin_sub_sin_le _ _).trans ?_
  rw [← mul_sub, abs_mul, abs_of_nonneg h0]
  have h2 : |piC - Real.pi| ≤ 1e-19 := by
    rw [abs_le]
    unfold piC
    constructor <;> linarith [Real.pi_gt_d20, Real.pi_lt_d20]
  nlinarith [abs_nonneg (piC - Real.pi)]

omit [Junk] in
theorem sin_values : (1 - 1e-18 ≤ Real.sin (1 / 2 * piC) ∧ Real.sin (1 / 2 * piC) ≤ 1 + 1e-18) ∧
    (1 / 2 - 1e-18 ≤ Real.sin (1 / 6 * piC) ∧ Real.sin (1 / 6 * piC) ≤ 1 / 2 + 1e-18) ∧
    (-1 - 1e-18 ≤ Real.sin (3 / 2 * piC) ∧ Real.sin (3 / 2 * piC) ≤ -1 + 1e-18) ∧
    (1 - 1e-18 ≤ Real.sin (5 / 2 * piC) ∧ Real.sin (5 / 2 * piC) ≤ 1 + 1e-18) ∧
    (1 / 2 - 1e-18 ≤ Real.sin (5 / 6 * piC) ∧ Real.sin (5 / 6 * piC) ≤ 1 / 2 + 1e-18) ∧
    (-1 / 2 - 1e-18 ≤ Real.sin (7 / 6 * piC) ∧ Real.sin (7 / 6 * piC) ≤ -1 / 2 + 1e-18) := by
  have f : ∀ k v : ℝ, 0 ≤ k → k ≤ 3 → Real.sin (k * Real.pi) = v →
      v - 1e-18 ≤ Real.sin (k * piC) ∧ Real.sin (k * piC) ≤ v + 1e-18 := by
    intro k v h0 h1 hv
    have := abs_le.1 (sin_piC h0 h1)
    rw [hv] at this
    constructor <;> linarith [this.1, this.2]
  refine ⟨f _ _ (by norm_num) (by norm_num) ?_, f _ _ (by norm_num) (by norm_num) ?_,
    f _ _ (by norm_num) (by norm_num) ?_, f _ _ (by norm_num) (by norm_num) ?_,
    f _ _ (by norm_num) (by norm_num) ?_, f _ _ (by norm_num) (by norm_num) ?_⟩
  · rw [show (1 : ℝ) / 2 * Real.pi = Real.pi / 2 by ring, Real.sin_pi_div_two]
  · rw [show (1 : ℝ) / 6 * Real.pi = Real.pi / 6 by ring, Real.sin_pi_div_six]
  · rw [show (3 : ℝ) / 2 * Real.pi = Real.pi / 2 + Real.pi by ring, Real.sin_add_pi, Real.sin_pi_div_two]
  · rw [show (5 : ℝ) / 2 * Real.pi = Real.pi / 2 + 2 * Real.pi by ring, Real.sin_add_two_pi, Real.sin_pi_div_two]
  · rw [show (5 : ℝ) / 6 * Real.pi = Real.pi - Real.pi / 6 by ring, Real.sin_pi_sub, Real.sin_pi_div_six]
  · rw [show (7 : ℝ) / 6 * Real.pi = Real.pi / 6 + Real.pi by ring, Real.sin_add_pi, Real.sin_pi_div_six]
    norm_num

omit [Junk] in
theorem sin_values' : (0.17364 ≤ Real.sin (1 / 18 * piC) ∧ Real.sin (1 / 18 * piC) ≤ 0.17366) ∧
    (0.756 ≤ Real.sin (5 / 18 * piC) ∧ Real.sin (5 / 18 * piC) ≤ 0.768) ∧
    (0.938 ≤ Real.sin (7 / 18 * piC) ∧ Real.sin (7 / 18 * piC) ≤ 0.941) := by
  refine ⟨?_, ?_, ?_⟩
  · have := abs_le.1 (Real.sin_bound (x := 1 / 18 * piC) (by unfold piC; rw [abs_le]; constructor <;> norm_num))
    rw [abs_of_nonneg (by unfold piC; norm_num)] at this
    unfold piC at *
    norm_num at this ⊢
    constructor <;> linarith [this.1, this.2]
  · have := abs_le.1 (Real.sin_bound (x := 5 / 18 * piC) (by unfold piC; rw [abs_le]; constructor <;> norm_num))
    rw [abs_of_nonneg (by unfold piC; norm_num)] at this
    unfold piC at *
    norm_num at this ⊢
    constructor <;> linarith [this.1, this.2]
  · have h1 := abs_le.1 (sin_piC (k := 7 / 18) (by norm_num) (by norm_num))
    have h2 : Real.sin (7 / 18 * Real.pi) = Real.cos (Real.pi / 9) := by
      rw [← Real.sin_pi_div_two_sub]; congr 1; ring
    have p1 := Real.pi_gt_d20
    have p2 := Real.pi_lt_d20
    have h3 := abs_le.1 (Real.cos_bound (x := Real.pi / 9) (by rw [abs_le]; constructor <;> linarith))
    rw [abs_of_nonneg (by positivity)] at h3
    have a1 : 0.349 ≤ Real.pi / 9 := by linarith
    have a2 : Real.pi / 9 ≤ 0.3491 := by linarith
    generalize Real.pi / 9 = t at *
    have s1 : 0.349 ^ 2 ≤ t ^ 2 := by gcongr
    have s2 : t ^ 2 ≤ 0.3491 ^ 2 := by gcongr
    have s3 : t ^ 4 ≤ 0.3491 ^ 4 := by gcongr
    norm_num at *
    constructor <;> linarith [h1.1, h1.2, h3.1, h3.2]

theorem cardinalSine_eq {v : ℝ} (h : v ≠ 0) : cardinalSine v = Real.sin (v * piC) / (v * piC) := by
  have hp : piC ≠ 0 := by unfold piC; norm_num
  have e : (v ==. lit 0) = false := by
    rw [Bool.eq_false_iff]
    intro h'
    rw [Exact.eq] at h'
    ex_simp at h'
    apply h
    simpa using h'
  unfold cardinalSine
  rw [e]
  have hp' : v *. (lit 3.14159265358979323846264338327950288 : ℝ) = v * piC := by
    unfold piC; ex_simp
  rw [hp', Exact.div (mul_ne_zero h hp)]
  rfl

/-! ## Sums of weights half way between two pixels -/

theorem lanczos3_eq {v : ℝ} (h0 : 0 < v) (h : v < 3) : lanczos3 v =
    Real.sin (v * piC) / (v * piC) * (Real.sin (v / 3 * piC) / (v / 3 * piC)) := by
  have e : (v <. lit 3) = true := by rw [Exact.lt]; ex_simp; exact h
  unfold lanczos3
  rw [e, if_pos rfl, cardinalSine_eq h0.ne', show (v /. lit 3 : ℝ) = v / 3 by ex_simp,
    cardinalSine_eq (by positivity)]
  ex_simp

theorem lanczos9_eq {v : ℝ} (h0 : 0 < v) (h : v < 9) : lanczosScaled 9 v =
    Real.sin (v / 3 * piC) / (v / 3 * piC) * (Real.sin (v / 9 * piC) / (v / 9 * piC)) / 3 := by
  have e1 : v /. 9 *. lit 3 = v / 3 := by
    rw [Exact.div (by norm_num)]; ex_simp; ring
  have e : (v /. 9 *. lit 3 <. lit 3) = true := by
    rw [e1, Exact.lt]; ex_simp; linarith
  have e2 : (v / 3 /. lit 3 : ℝ) = v / 9 := by ex_simp; ring
  have e3 : (lit 3 /. 9 : ℝ) = 1 / 3 := by
    rw [Exact.div (by norm_num)]; ex_simp; norm_num
  unfold lanczosScaled
  rw [e, if_pos rfl, e1, e2, e3, cardinalSine_eq (by positivity), cardinalSine_eq (by positivity)]
  ex_simp
  ring

theorem tap7 (i : Nat) : lanczosTap 7 (1 / 2 : ℝ) i = lanczos3 |(i : ℝ) - 7 / 2| := by
  unfold lanczosTap
  rw [if_pos rfl]
  congr 1
  unfold Scalar.ofNat
  ex_simp
  congr 1
  ring

theorem tap9 (i : Nat) : lanczosTap 9 (1 / 2 : ℝ) i = lanczosScaled 9 |(i : ℝ) - 9 / 2| := by
  unfold lanczosTap
  rw [if_neg (by decide)]
  have e : (Scalar.ofNat 9 : ℝ) = 9 := by unfold Scalar.ofNat; ex_simp; norm_num
  rw [e]
  congr 1
  unfold Scalar.ofNat
  ex_simp
  congr 1
  ring

omit [Junk] in
theorem mul_bounds {a b a0 a1 b0 b1 : ℝ} (ha : a0 ≤ a ∧ a ≤ a1) (hb : b0 ≤ b ∧ b ≤ b1) (h0 : 0 ≤ a0) (h1 : 0 ≤ b0) :
    a0 * b0 ≤ a * b ∧ a * b ≤ a1 * b1 :=
  ⟨mul_le_mul ha.1 hb.1 h1 (h0.trans ha.1), mul_le_mul ha.2 hb.2 (h1.trans hb.1) (h0.trans (ha.1.trans ha.2))⟩

omit [Junk] in
theorem mul_bounds_neg {a b a0 a1 b0 b1 : ℝ} (ha : -a1 ≤ a ∧ a ≤ -a0) (hb : b0 ≤ b ∧ b ≤ b1) (h0 : 0 ≤ a0) (h1 : 0 ≤ b0) :
    -(a1 * b1) ≤ a * b ∧ a * b ≤ -(a0 * b0) := by
  have := mul_bounds (a := -a) (b := b) (a0 := a0) (a1 := a1) ⟨by linarith [ha.2], by linarith [ha.1]⟩ hb h0 h1
  constructor <;> linarith [this.1, this.2]

theorem lanczos3_values : (0.6079 < lanczos3 (1 / 2 : ℝ) ∧ lanczos3 (1 / 2 : ℝ) < 0.60793) ∧
    (-0.1351 < lanczos3 (3 / 2 : ℝ) ∧ lanczos3 (3 / 2 : ℝ) < -0.13509) ∧
    (0.0243 < lanczos3 (5 / 2 : ℝ) ∧ lanczos3 (5 / 2 : ℝ) < 0.02432) ∧ lanczos3 (7 / 2 : ℝ) = 0 := by
  obtain ⟨a, b, c, d, e, -⟩ := sin_values
  rw [lanczos3_eq (by norm_num) (by norm_num), lanczos3_eq (by norm_num) (by norm_num),
    lanczos3_eq (by norm_num) (by norm_num), lanczos3_far (by norm_num)]
  rw [show (1 : ℝ) / 2 / 3 = 1 / 6 by norm_num, show (3 : ℝ) / 2 / 3 = 1 / 2 by norm_num,
    show (5 : ℝ) / 2 / 3 = 5 / 6 by norm_num]
  have ab := mul_bounds a b (by norm_num) (by norm_num)
  have ca := mul_bounds_neg (a := Real.sin (3 / 2 * piC)) (a0 := 1 - 1e-18) (a1 := 1 + 1e-18) ⟨by linarith [c.1], by linarith [c.2]⟩ a
    (by norm_num) (by norm_num)
  have de := mul_bounds d e (by norm_num) (by norm_num)
  simp only [div_mul_div_comm]
  refine ⟨⟨?_, ?_⟩, ⟨?_, ?_⟩, ⟨?_, ?_⟩, trivial⟩
  · rw [lt_div_iff₀ (by unfold piC; norm_num)]
    refine lt_of_lt_of_le ?_ ab.1
    unfold piC; norm_num
  · rw [div_lt_iff₀ (by unfold piC; norm_num)]
    refine lt_of_le_of_lt ab.2 ?_
    unfold piC; norm_num
  · rw [lt_div_iff₀ (by unfold piC; norm_num)]
    refine lt_of_lt_of_le ?_ ca.1
    unfold piC; norm_num
  · rw [div_lt_iff₀ (by unfold piC; norm_num)]
    refine lt_of_le_of_lt ca.2 ?_
    unfold piC; norm_num
  · rw [lt_div_iff₀ (by unfold piC; norm_num)]
    refine lt_of_lt_of_le ?_ de.1
    unfold piC; norm_num
  · rw [div_lt_iff₀ (by unfold piC; norm_num)]
    refine lt_of_le_of_lt de.2 ?_
    unfold piC; norm_num

/-- The seven weights of the Lanczos filter half way between two pixels add up to less than 1. -/
theorem taps7_sum : 0.9942 < ∑ i ∈ Finset.range 7, lanczosTap 7 (1 / 2 : ℝ) i ∧
    ∑ i ∈ Finset.range 7, lanczosTap 7 (1 / 2 : ℝ) i < 0.9945 := by
  obtain ⟨a, b, c, d⟩ := lanczos3_values
  simp only [tap7, Finset.sum_range_succ, Finset.sum_range_zero]
  norm_num [abs_of_pos, abs_of_neg] at a b c ⊢
  rw [d]
  constructor <;> linarith [a.1, a.2, b.1, b.2, c.1, c.2]

theorem lanczos9_values : (0.3166 < lanczosScaled 9 (1 / 2 : ℝ) ∧ lanczosScaled 9 (1 / 2 : ℝ) < 0.3168) ∧
    (0.2026 < lanczosScaled 9 (3 / 2 : ℝ) ∧ lanczosScaled 9 (3 / 2 : ℝ) < 0.2027) ∧
    (0.0551 < lanczosScaled 9 (5 / 2 : ℝ) ∧ lanczosScaled 9 (5 / 2 : ℝ) < 0.0561) ∧
    (-0.0351 < lanczosScaled 9 (7 / 2 : ℝ) ∧ lanczosScaled 9 (7 / 2 : ℝ) < -0.0349) ∧
    (-0.0451 < lanczosScaled 9 (9 / 2 : ℝ) ∧ lanczosScaled 9 (9 / 2 : ℝ) < -0.0450) := by
  obtain ⟨a, b, c, -, e, f⟩ := sin_values
  obtain ⟨u, v, x⟩ := sin_values'
  rw [lanczos9_eq (by norm_num) (by norm_num), lanczos9_eq (by norm_num) (by norm_num),
    lanczos9_eq (by norm_num) (by norm_num), lanczos9_eq (by norm_num) (by norm_num),
    lanczos9_eq (by norm_num) (by norm_num)]
  rw [show (1 : ℝ) / 2 / 3 = 1 / 6 by norm_num, show (3 : ℝ) / 2 / 3 = 1 / 2 by norm_num,
    show (5 : ℝ) / 2 / 3 = 5 / 6 by norm_num, show (7 : ℝ) / 2 / 3 = 7 / 6 by norm_num,
    show (9 : ℝ) / 2 / 3 = 3 / 2 by norm_num, show (1 : ℝ) / 2 / 9 = 1 / 18 by norm_num,
    show (3 : ℝ) / 2 / 9 = 1 / 6 by norm_num,
    show (5 : ℝ) / 2 / 9 = 5 / 18 by norm_num, show (7 : ℝ) / 2 / 9 = 7 / 18 by norm_num,
    show (9 : ℝ) / 2 / 9 = 1 / 2 by norm_num]
  have ab := mul_bounds a b (by norm_num) (by norm_num)
  have bu := mul_bounds b u (by norm_num) (by norm_num)
  have ev := mul_bounds e v (by norm_num) (by norm_num)
  have fx := mul_bounds_neg (a := Real.sin (7 / 6 * piC)) (a0 := 1 / 2 - 1e-18) (a1 := 1 / 2 + 1e-18) ⟨by linarith [f.1], by linarith [f.2]⟩ x
    (by norm_num) (by norm_num)
  have ca := mul_bounds_neg (a := Real.sin (3 / 2 * piC)) (a0 := 1 - 1e-18) (a1 := 1 + 1e-18) ⟨by linarith [c.1], by linarith [c.2]⟩ a
    (by norm_num) (by norm_num)
  simp only [div_mul_div_comm, div_div]
  refine ⟨⟨?_, ?_⟩, ⟨?_, ?_⟩, ⟨?_, ?_⟩, ⟨?_, ?_⟩, ⟨?_, ?_⟩⟩
  · rw [lt_div_iff₀ (by unfold piC; norm_num)]
    refine lt_of_lt_of_le ?_ bu.1
    unfold piC; norm_num
  · rw [div_lt_iff₀ (by unfold piC; norm_num)]
    refine lt_of_le_of_lt bu.2 ?_
    unfold piC; norm_num
  · rw [lt_div_iff₀ (by unfold piC; norm_num)]
    refine lt_of_lt_of_le ?_ ab.1
    unfold piC; norm_num
  · rw [div_lt_iff₀ (by unfold piC; norm_num)]
    refine lt_of_le_of_lt ab.2 ?_
    unfold piC; norm_num
  · rw [lt_div_iff₀ (by unfold piC; norm_num)]
    refine lt_of_lt_of_le ?_ ev.1
    unfold piC; norm_num
  · rw [div_lt_iff₀ (by unfold piC; norm_num)]
    refine lt_of_le_of_lt ev.2 ?_
    unfold piC; norm_num
  · rw [lt_div_iff₀ (by unfold piC; norm_num)]
    refine lt_of_lt_of_le ?_ fx.1
    unfold piC; norm_num
  · rw [div_lt_iff₀ (by unfold piC; norm_num)]
    refine lt_of_le_of_lt fx.2 ?_
    unfold piC; norm_num
  · rw [lt_div_iff₀ (by unfold piC; norm_num)]
    refine lt_of_lt_of_le ?_ ca.1
    unfold piC; norm_num
  · rw [div_lt_iff₀ (by unfold piC; norm_num)]
    refine lt_of_le_of_lt ca.2 ?_
    unfold piC; norm_num

/-- The nine weights the automatic filter uses to halve an image add up to more than 1. -/
theorem taps9_sum : 1.033 < ∑ i ∈ Finset.range 9, lanczosTap 9 (1 / 2 : ℝ) i ∧
    ∑ i ∈ Finset.range 9, lanczosTap 9 (1 / 2 : ℝ) i < 1.0365 := by
  obtain ⟨a, b, c, d, e⟩ := lanczos9_values
  simp only [tap9, Finset.sum_range_succ, Finset.sum_range_zero]
  norm_num [abs_of_pos, abs_of_neg] at a b c d e ⊢
  constructor <;> linarith [a.1, a.2, b.1, b.2, c.1, c.2, d.1, d.2, e.1, e.2]

/-! ## C90: constant images -/

theorem windowed_const (w h : Nat) (c : Col ℝ) (N : Nat) (wx wy : Nat → ℝ) (x y : ℝ) :
    windowed w h (fun _ _ => c) N wx wy x y =
      perChannel fun ch => (∑ i ∈ Finset.range N, wx i) * (∑ j ∈ Finset.range N, wy j) * ch c := by
  unfold windowed at'
  congr 1
  funext ch
  simp only [sum_range]
  ex_simp
  simp only [← Finset.mul_sum]
  ring

theorem half_pos (n x : Nat) (hx : x < n) : (scaledPos (2 * n) n x : ℝ) = (2 * x : Int) + 1 / 2 := by
  have hn : (n : ℝ) ≠ 0 := by exact_mod_cast (by omega : n ≠ 0)
  rw [Exact.scaledPos_eq _ _ _ (by omega) (by omega)]
  push_cast
  field_simp
  ring

theorem half_frac (z : Int) : frac ((z : ℝ) + 1 / 2) = 1 / 2 := by
  have : ⌊(z : ℝ) + 1 / 2⌋ = z := by
    rw [Int.floor_eq_iff]; constructor <;> linarith
  unfold frac; ex_simp; rw [this]; ring

theorem half_window {n m : Nat} (hn : 0 < n) (hm : 0 < m) (hnl : 2 * n ≤ 1073741823) (hml : 2 * m ≤ 1073741823) :
    autoWindow ℝ (2 * n) (2 * m) n m = 4 := by
  have h1 : ((2 * n : Nat) : ℝ) / n = 2 := by
    have : (n : ℝ) ≠ 0 := by exact_mod_cast hn.ne'
    push_cast; field_simp
  have h2 : ((2 * m : Nat) : ℝ) / m = 2 := by
    have : (m : ℝ) ≠ 0 := by exact_mod_cast hm.ne'
    push_cast; field_simp
  have := C18_auto_window (2 * n) (2 * m) n m (by omega) (by omega) hn hm hnl hml
  rw [h1, h2] at this
  have c : ⌈2 * max (2 : ℝ) 2⌉ = 4 := by
    rw [max_self, show (2 : ℝ) * 2 = ((4 : Int) : ℝ) by norm_num, Int.ceil_intCast]
  omega

omit [Junk] in
theorem half_valid {n m : Nat} (hv : ValidSize (2 * n) (2 * m)) : ValidSize n m := by
  unfold ValidSize at *
  rcases hv with ⟨h1, h2⟩ | ⟨h1, h2, h3⟩
  · left; omega
  · right
    have : 2 * n * (2 * m) = 4 * (n * m) := by ring
    rw [this] at h3
    exact ⟨by omega, by omega, by omega⟩

/-- C90: the Lanczos filter does not keep brightness. Halving an image of one colour multiplies every
channel (alpha too) by one factor between 0.988 and 0.9891, so a white image gets darker. -/
theorem C90_lanczos3_darkens : ∃ k : ℝ, 0.988 < k ∧ k < 0.9891 ∧
    ∀ (b : PixelBuffer (Col ℝ)) (c : Col ℝ) (n m : Nat), 0 < n → Shows b (2 * n) (2 * m) (fun _ _ => c) →
      ∃ b', resize b n m .Lanczos3 = .ok b' ∧
        Shows b' n m fun _ _ => ⟨k * c.c0, k * c.c1, k * c.c2, k * c.alpha⟩ := by
  have hs := taps7_sum
  refine ⟨(∑ i ∈ Finset.range 7, lanczosTap 7 (1 / 2 : ℝ) i) * (∑ i ∈ Finset.range 7, lanczosTap 7 (1 / 2 : ℝ) i),
    ?_, ?_, ?_⟩
  · nlinarith [hs.1]
  · nlinarith [hs.1, hs.2]
  · intro b c n m hn s
    obtain ⟨b', h1, h2⟩ := C18_resize s (by omega) n m (half_valid s.size) (by omega) .Lanczos3 (by simp)
    refine ⟨b', h1, h2.congr ?_⟩
    intro x y hx hy
    simp only [resized]
    unfold lanczosAt
    rw [half_pos n x hx, half_pos m y hy, half_frac, half_frac, windowed_const]
    rfl

/-- C90: nor does the automatic filter. Halving an image of one colour multiplies every channel
(alpha too) by one factor between 1.067 and 1.075, so a gray image gets lighter and a white one leaves
the range 0..1. -/
theorem C90_auto_brightens : ∃ k : ℝ, 1.067 < k ∧ k < 1.075 ∧
    ∀ (b : PixelBuffer (Col ℝ)) (c : Col ℝ) (n m : Nat), 0 < n → 2 * n ≤ 134217728 → 2 * m ≤ 134217728 →
      Shows b (2 * n) (2 * m) (fun _ _ => c) →
      ∃ b', resize b n m .Auto = .ok b' ∧
        Shows b' n m fun _ _ => ⟨k * c.c0, k * c.c1, k * c.c2, k * c.alpha⟩ := by
  have hs := taps9_sum
  refine ⟨(∑ i ∈ Finset.range 9, lanczosTap 9 (1 / 2 : ℝ) i) * (∑ i ∈ Finset.range 9, lanczosTap 9 (1 / 2 : ℝ) i),
    ?_, ?_, ?_⟩
  · nlinarith [hs.1]
  · nlinarith [hs.1, hs.2]
  · intro b c n m hn hnl hml s
    have hm : 0 < m := by rcases s.size with ⟨h1, _⟩ | ⟨_, h, _⟩ <;> omega
    obtain ⟨b', h1, h2⟩ := C18_resize s (by omega) n m (half_valid s.size) (by omega) .Auto
      (fun _ => ⟨hnl, hml⟩)
    refine ⟨b', h1, h2.congr ?_⟩
    intro x y hx hy
    simp only [resized]
    rw [if_neg (by omega), half_window hn hm (by omega) (by omega), if_pos (by decide)]
    unfold lanczosAt
    rw [half_pos n x hx, half_pos m y hy, half_frac, half_frac, windowed_const]
    rfl

/-! ## C88: the automatic filter and the nearest pixel prefer a side -/

theorem auto_two :
    ∃ L Q S : ℝ, L < Q ∧ 1 < S ∧ ∀ p q : Col ℝ, resize ⟨2, 2, [p, q, p, q]⟩ 1 1 .Auto =
      .ok ⟨1, 1, [perChannel fun ch => (L * ch p + Q * ch q) * S]⟩ := by
  have hs := taps9_sum
  refine ⟨lanczosTap 9 (1 / 2 : ℝ) 0 + lanczosTap 9 (1 / 2 : ℝ) 1 + lanczosTap 9 (1 / 2 : ℝ) 2 +
      lanczosTap 9 (1 / 2 : ℝ) 3 + lanczosTap 9 (1 / 2 : ℝ) 4,
    lanczosTap 9 (1 / 2 : ℝ) 5 + lanczosTap 9 (1 / 2 : ℝ) 6 + lanczosTap 9 (1 / 2 : ℝ) 7 +
      lanczosTap 9 (1 / 2 : ℝ) 8, ∑ i ∈ Finset.range 9, lanczosTap 9 (1 / 2 : ℝ) i, ?_, by linarith [hs.1], ?_⟩
  · obtain ⟨a, b, c, d, e⟩ := lanczos9_values
    simp only [tap9]
    norm_num [abs_of_pos, abs_of_neg] at e ⊢
    linarith [e.2]
  · intro p q
    have s : Shows (⟨2, 2, [p, q, p, q]⟩ : PixelBuffer (Col ℝ)) 2 2 (fun x _ => if x = 0 then p else q) :=
      ⟨rfl, rfl, by simp [ValidSize], rfl⟩
    obtain ⟨b', h1, h2⟩ := C18_resize s (by omega) 1 1 (by simp [ValidSize]) (by omega) .Auto
      (fun _ => ⟨by omega, by omega⟩)
    rw [h1]
    refine congrArg _ ((h2.congr (px' := fun _ _ => _) ?_).eq ⟨rfl, rfl, by simp [ValidSize], rfl⟩)
    intro x y hx hy
    have hx : x = 0 := by omega
    have hy : y = 0 := by omega
    subst hx hy
    have hw := half_window (n := 1) (m := 1) (by omega) (by omega) (by omega) (by omega)
    have hp := half_pos 1 0 (by omega)
    have hb : base (1 / 2 : ℝ) = 0 := by
      rw [Exact.base_eq]
      have : ⌊(1 : ℝ) / 2⌋ = 0 := by norm_num
      rw [this]; rfl
    have hfr : frac (1 / 2 : ℝ) = 1 / 2 := by
      have := half_frac 0
      rwa [Int.cast_zero, zero_add] at this
    norm_num only at hw hp
    simp only [resized]
    rw [if_neg (by omega), hw, if_pos (by decide), hp]
    unfold lanczosAt
    rw [hfr]
    unfold windowed
    congr 1
    funext ch
    simp only [sum_range]
    rw [hb]
    have row : ∀ j : Nat, (∑ i ∈ Finset.range 9, ch (at' 2 2 (fun x _ => if x = 0 then p else q)
        (0 + (i : Int) - ((9 / 2 : Nat) : Int)) (0 + (j : Int) - ((9 / 2 : Nat) : Int))) *. lanczosTap 9 (1 / 2 : ℝ) i) =
        (lanczosTap 9 (1 / 2 : ℝ) 0 + lanczosTap 9 (1 / 2 : ℝ) 1 + lanczosTap 9 (1 / 2 : ℝ) 2 +
          lanczosTap 9 (1 / 2 : ℝ) 3 + lanczosTap 9 (1 / 2 : ℝ) 4) * ch p +
        (lanczosTap 9 (1 / 2 : ℝ) 5 + lanczosTap 9 (1 / 2 : ℝ) 6 + lanczosTap 9 (1 / 2 : ℝ) 7 +
          lanczosTap 9 (1 / 2 : ℝ) 8) * ch q := by
      intro j
      simp only [Finset.sum_range_succ, Finset.sum_range_zero, at', nearest]
      ex_simp
      norm_num
      ring
    have e : (2 * 4 + 1) = 9 := rfl
    simp only [e, row]
    ex_simp
    rw [Finset.mul_sum]

/-- C88, the exception: halving by the automatic filter does not commute with flips; it gives the
second column more weight than the first. -/
theorem C88_auto_direction (p q : Col ℝ) (hpq : p.c0 ≠ q.c0) :
    (flip_horizontal Rgb.NONE ⟨2, 2, [p, q, p, q]⟩ >>= (resize · 1 1 .Auto)) ≠
      (resize ⟨2, 2, [p, q, p, q]⟩ 1 1 .Auto >>= flip_horizontal Rgb.NONE) := by
  obtain ⟨L, Q, S, hL, hS, key⟩ := auto_two
  have hf : flip_horizontal Rgb.NONE (⟨2, 2, [p, q, p, q]⟩ : PixelBuffer (Col ℝ)) = .ok ⟨2, 2, [q, p, q, p]⟩ := rfl
  have hf1 : ∀ c : Col ℝ, flip_horizontal Rgb.NONE (⟨1, 1, [c]⟩ : PixelBuffer (Col ℝ)) = .ok ⟨1, 1, [c]⟩ :=
    fun _ => rfl
  rw [hf, ok_bind, key, key, ok_bind, hf1]
  intro h
  injection h with h
  injection h with _ _ h
  injection h with h
  have h0 := congrArg Col.c0 h
  simp only [perChannel] at h0
  have h1 : (L * q.c0 + Q * p.c0) - (L * p.c0 + Q * q.c0) = 0 := by
    have : (L * q.c0 + Q * p.c0) = (L * p.c0 + Q * q.c0) := mul_right_cancel₀ (by linarith) h0
    linarith
  have h2 : (Q - L) * (p.c0 - q.c0) = 0 := by linarith
  rcases mul_eq_zero.1 h2 with h3 | h3
  · linarith
  · exact hpq (by linarith)

/-- C88, the exception: the nearest pixel is searched from the left end: of three pixels the first one
is kept, not the middle one. -/
theorem C88_nearest_direction (p q r : Col ℝ) (hpr : p ≠ r) :
    resize ⟨3, 1, [p, q, r]⟩ 1 1 .Nearest = .ok ⟨1, 1, [p]⟩ ∧
    (flip_horizontal Rgb.NONE ⟨3, 1, [p, q, r]⟩ >>= (resize · 1 1 .Nearest)) ≠
      (resize ⟨3, 1, [p, q, r]⟩ 1 1 .Nearest >>= flip_horizontal Rgb.NONE) := by
  have key : ∀ p q r : Col ℝ, resize ⟨3, 1, [p, q, r]⟩ 1 1 .Nearest = .ok ⟨1, 1, [p]⟩ := by
    intro p q r
    have s : Shows (⟨3, 1, [p, q, r]⟩ : PixelBuffer (Col ℝ)) 3 1 (fun x _ => ([p, q, r][x]?).getD p) :=
      ⟨rfl, rfl, by simp [ValidSize], rfl⟩
    obtain ⟨b', h1, h2⟩ := C18_resize s (by omega) 1 1 (by simp [ValidSize]) (by omega) .Nearest (by simp)
    rw [h1]
    refine congrArg _ ((h2.congr (px' := fun _ _ => p) ?_).eq ⟨rfl, rfl, by simp [ValidSize], rfl⟩)
    intro x y hx hy
    have hx : x = 0 := by omega
    subst hx
    have hp := C19_nearest_position 3 1 0 (by omega) (by omega) (by omega)
    have e : scaledNearest ℝ 3 1 0 = 0 := by
      rw [abs_le] at hp
      norm_num at hp
      have a : (-1 : ℝ) < (scaledNearest ℝ 3 1 0 : ℝ) := by linarith [hp.1]
      have c : (scaledNearest ℝ 3 1 0 : ℝ) < 1 := by linarith [hp.2]
      have a' : (-1 : Int) < scaledNearest ℝ 3 1 0 := by exact_mod_cast a
      have c' : scaledNearest ℝ 3 1 0 < 1 := by exact_mod_cast c
      omega
    simp only [resized, at']
    rw [e]
    rfl
  refine ⟨key p q r, ?_⟩
  rw [key]
  have hf : flip_horizontal Rgb.NONE (⟨3, 1, [p, q, r]⟩ : PixelBuffer (Col ℝ)) = .ok ⟨3, 1, [r, q, p]⟩ := rfl
  have hf1 : flip_horizontal Rgb.NONE (⟨1, 1, [p]⟩ : PixelBuffer (Col ℝ)) = .ok ⟨1, 1, [p]⟩ := rfl
  rw [hf, ok_bind, ok_bind, key, hf1]
  intro h
  injection h with h
  injection h with _ _ h
  injection h with h
  exact hpr h.symm

/-! Concrete cases: a 4 x 2 image of one colour, a 2 x 2 image with different columns. -/

example : Shows (⟨4, 2, List.replicate 8 (⟨1 / 2, 1 / 4, 1, 1⟩ : Col ℝ)⟩) (2 * 2) (2 * 1)
    (fun _ _ => ⟨1 / 2, 1 / 4, 1, 1⟩) := ⟨rfl, rfl, by simp [ValidSize], rfl⟩

example : (⟨0, 0, 0, 1⟩ : Col ℝ).c0 ≠ (⟨1, 0, 0, 1⟩ : Col ℝ).c0 := by norm_num

example : (flip_horizontal Rgb.NONE ⟨3, 2, List.replicate 6 (⟨1 / 2, 1 / 4, 1, 1⟩ : Col ℝ)⟩ >>= (resize · 7 5 .Auto)) =
    (resize ⟨3, 2, List.replicate 6 (⟨1 / 2, 1 / 4, 1, 1⟩ : Col ℝ)⟩ 7 5 .Auto >>= flip_horizontal Rgb.NONE) :=
  (C88_resize (b := ⟨3, 2, List.replicate 6 (⟨1 / 2, 1 / 4, 1, 1⟩ : Col ℝ)⟩)
    ⟨by simp [ValidSize], rfl⟩ (by decide) 7 5 (by simp [ValidSize]) .Auto (by decide)
    (fun _ => ⟨by decide, by decide⟩)).1

example : (flip_vertical Rgb.NONE ⟨3, 2, List.replicate 6 (⟨1 / 2, 1 / 4, 1, 1⟩ : Col ℝ)⟩ >>=
      (rotate · (-(30 : ℝ)) Rgb.NONE .Lanczos3)) =
    (rotate ⟨3, 2, List.replicate 6 (⟨1 / 2, 1 / 4, 1, 1⟩ : Col ℝ)⟩ 30 Rgb.NONE .Lanczos3 >>= flip_vertical Rgb.NONE) :=
  (C89_rotate_flips (b := ⟨3, 2, List.replicate 6 (⟨1 / 2, 1 / 4, 1, 1⟩ : Col ℝ)⟩)
    ⟨by simp [ValidSize], rfl⟩ 30 Rgb.NONE .Lanczos3 (by decide)
    (by norm_num [abs_of_neg]) (by norm_num [abs_of_neg])).2

end
end D10
