import Verif.SpecLabFloat
import Verif.Props.Lab
import Verif.Props.AccuracyPow

/-!
# Accuracy of the 32-bit Lab and LCh conversions (C112)
-/

namespace D10
open Spec

/-! ## The two curves -/

theorem cbrt_pow {t : ℝ} (h : 0 ≤ t) : (t ^ (1 / 3 : ℝ)) ^ 3 = t := by
  rw [← Real.rpow_natCast, ← Real.rpow_mul h]; norm_num

theorem cbrt_le {t u : ℝ} (h : 0 ≤ t) (hu : 0 ≤ u) (htu : t ≤ u ^ 3) : t ^ (1 / 3 : ℝ) ≤ u := by
  rw [← cbrt_pow h] at htu
  exact le_of_pow_le_pow_left₀ (by norm_num) hu htu

theorem le_cbrt {t u : ℝ} (h : 0 ≤ t) (htu : u ^ 3 ≤ t) : u ≤ t ^ (1 / 3 : ℝ) := by
  rw [← cbrt_pow h] at htu
  exact le_of_pow_le_pow_left₀ (by norm_num) (Real.rpow_nonneg h _) htu

/-- The cube near the break is nearly linear. -/
theorem cube_near {u : ℝ} (h1 : 0.20689 ≤ u) (h2 : u ≤ 0.20692) :
    0.20689 ^ 3 + 0.1284 * (u - 0.20689) ≤ u ^ 3 ∧ u ^ 3 ≤ 0.20689 ^ 3 + 0.12845 * (u - 0.20689) := by
  have k : u ^ 3 = 0.20689 ^ 3 + (u - 0.20689) * (u ^ 2 + u * 0.20689 + 0.20689 ^ 2) := by ring
  rw [k]
  norm_num at h1 h2
  have q1 : 0.1284 ≤ (u ^ 2 + u * 0.20689 + 0.20689 ^ 2) := by norm_num; nlinarith
  have q2 : (u ^ 2 + u * 0.20689 + 0.20689 ^ 2) ≤ 0.12845 := by norm_num; nlinarith
  generalize u ^ 2 + u * 0.20689 + 0.20689 ^ 2 = q at *
  have w : 0 ≤ u - 0.20689 := by norm_num; linarith
  have m1 := mul_le_mul_of_nonneg_left q1 w
  have m2 := mul_le_mul_of_nonneg_left q2 w
  constructor <;> linarith

/-- Powers of a number between 1 and 1.4 with exponents up to 1. -/
theorem rpow_exponent_big {x p r : ℝ} (h1 : 1 ≤ x) (h2 : x ≤ 1.4) (hp : p ≤ 1) (hr : r ≤ 1) :
    |x ^ p - x ^ r| ≤ |p - r| := by
  wlog h : p ≤ r generalizing p r
  · rw [abs_sub_comm, abs_sub_comm p r]; exact this hr hp (le_of_not_ge h)
  have x0 : 0 < x := by linarith
  have m := Real.rpow_le_rpow_of_exponent_le h1 h
  rw [abs_sub_comm, abs_of_nonneg (by linarith), abs_sub_comm, abs_of_nonneg (by linarith)]
  -- x^r - x^p = x^r (1 - x^(p-r)) ≤ x^r (r-p) log x
  have e : x ^ p = x ^ r * x ^ (p - r) := by rw [← Real.rpow_add x0]; congr 1; ring
  have l : 1 - x ^ (p - r) ≤ (r - p) * Real.log x := by
    rw [Real.rpow_def_of_pos x0]
    have := Real.add_one_le_exp (Real.log x * (p - r)); nlinarith
  have l0 : Real.log x ≤ x - 1 := Real.log_le_sub_one_of_pos x0
  have xr : x ^ r ≤ x := by
    have := Real.rpow_le_rpow_of_exponent_le h1 hr; rwa [Real.rpow_one] at this
  have xr0 := Real.rpow_pos_of_pos x0 r
  have hl : Real.log x ≤ 0.4 := by linarith
  have hl0 : 0 ≤ Real.log x := Real.log_nonneg h1
  calc x ^ r - x ^ p = x ^ r * (1 - x ^ (p - r)) := by rw [e]; ring
    _ ≤ x ^ r * ((r - p) * Real.log x) := mul_le_mul_of_nonneg_left l xr0.le
    _ ≤ 1.4 * ((r - p) * 0.4) := by
        apply mul_le_mul (by linarith) (mul_le_mul_of_nonneg_left hl (by linarith))
          (mul_nonneg (by linarith) hl0) (by norm_num)
    _ ≤ r - p := by nlinarith

theorem low_real {q : ℚ} (h : -0.001 ≤ q) : (-0.001 : ℝ) ≤ q := by
  have : ((-0.001 : ℚ) : ℝ) ≤ (q : ℝ) := by exact_mod_cast h
  norm_num at this ⊢; exact this

section
variable [Libm b32]

theorem PowNear.nonneg {δ : ℝ} (hL : PowNear δ) : 0 ≤ δ :=
  (abs_nonneg _).trans (hL (lit 1) (lit 1) FP.lit1.1 FP.lit1.1 (by rw [show (lit 1 : F32).val = 1 from FP.lit1.2]; norm_num)
    (by rw [show (lit 1 : F32).val = 1 from FP.lit1.2]; norm_num) (by rw [show (lit 1 : F32).val = 1 from FP.lit1.2]; norm_num)
    (by rw [show (lit 1 : F32).val = 1 from FP.lit1.2]; norm_num)).err

/-- The root as the program computes it. -/
theorem root_close {δ : ℝ} (hL : PowNear δ) {t : F32} (hf : t.fin = true) (h0 : 0 ≤ t.val) (h1 : t.val ≤ 1.4) :
    Close (Scalar.powf t (lit 1 /. lit 3 : F32)) ((t.val : ℝ) ^ (1 / 3 : ℝ)) (δ + 1 / 10000000) := by
  have y : (FP.div (FP.ofRat b32 false 1) (FP.ofRat b32 false 3)).fin = true ∧
      (1 / 3 : ℚ) ≤ (FP.div (FP.ofRat b32 false 1) (FP.ofRat b32 false 3)).val ∧
      (FP.div (FP.ofRat b32 false 1) (FP.ofRat b32 false 3)).val ≤ 1 / 3 + 1 / 33554432 := by decide +kernel
  have y1 : ((1 / 3 : ℚ) : ℝ) ≤ ((lit 1 /. lit 3 : F32).val : ℝ) := by exact_mod_cast y.2.1
  have y2 : ((lit 1 /. lit 3 : F32).val : ℝ) ≤ ((1 / 3 + 1 / 33554432 : ℚ) : ℝ) := by exact_mod_cast y.2.2
  have c := hL t (lit 1 /. lit 3) hf y.1 h0 h1 (lt_of_lt_of_le (by norm_num) y.2.1)
    (y.2.2.trans (by norm_num))
  have t0 : (0 : ℝ) ≤ t.val := by exact_mod_cast h0
  have t1 : (t.val : ℝ) ≤ 1.4 := by
    have : ((t.val : ℚ) : ℝ) ≤ ((1.4 : ℚ) : ℝ) := by exact_mod_cast h1
    norm_num at this ⊢; exact this
  generalize (lit 1 /. lit 3 : F32) = w at *
  push_cast at y1 y2
  refine close_clamp_exact c ?_
  rcases le_total (t.val : ℝ) 1 with h | h
  · refine (rpow_exponent' t0 h (m := 1 / 3) (d := 1 / 33554432) (by norm_num) (by linarith) (by norm_num) ?_).trans
      (by norm_num)
    rw [abs_le]; constructor <;> linarith
  · refine (rpow_exponent_big h t1 (by linarith) (by norm_num)).trans ?_
    rw [abs_le]; constructor <;> linarith

/-- The linear part as the program computes it. -/
theorem linear_close {t : F32} (hf : t.fin = true) (h0 : -0.001 ≤ t.val) (h1 : t.val ≤ 0.00886) :
    Close ((lit 903.3 *. t +. lit 16) /. lit 116 : F32) ((903.3 * (t.val : ℝ) + 16) / 116) (1 / 10000000) := by
  have t0 := low_real h0
  have t1 : ((t.val : ℚ) : ℝ) ≤ ((0.00886 : ℚ) : ℝ) := by exact_mod_cast h1
  have nt : NearF t t.val 0 0.00886 := NearF.of_fin hf (by
    rw [abs_le]; norm_num at t0 t1 ⊢; constructor <;> linarith)
  have n := (((NearF.lit 10 903.3 (B := 903.3) (by norm_num) (by norm_num) (by norm_num)).mul 4 (by norm_num) nt
    (by norm_num)).add 5 (by norm_num) (NearF.lit_rep (B := 16) 16 (by decide +kernel) (by norm_num))
    (by norm_num)).div 0 (by norm_num) (m := 116)
    (NearF.lit_rep (B := 116) 116 (by decide +kernel) (by norm_num)) (by norm_num) (by norm_num) (by norm_num)
  exact n.is (by norm_num) (by norm_num)

theorem break_lit : (lit 0.008856 : F32).fin = true ∧ (0.0088559 : ℚ) ≤ (lit 0.008856 : F32).val ∧
    (lit 0.008856 : F32).val ≤ 0.0088561 := by
  show (FP.ofRat b32 false 0.008856).fin = true ∧ _ ≤ (FP.ofRat b32 false 0.008856).val ∧ 
    (FP.ofRat b32 false 0.008856).val ≤ _
  decide +kernel

/-- Which branch of the curve the program takes, and how good its result is. -/
theorem labFunc_cases {δ : ℝ} (hL : PowNear δ) {t : F32} (hf : t.fin = true) (h0 : -0.001 ≤ t.val) (h1 : t.val ≤ 1.4) :
    ((t.val : ℝ) ≤ 0.0088561 ∧ Close (labFunc t) ((903.3 * (t.val : ℝ) + 16) / 116) (1 / 10000000)) ∨
    ((0.0088559 : ℝ) ≤ t.val ∧ Close (labFunc t) ((t.val : ℝ) ^ (1 / 3 : ℝ)) (δ + 1 / 10000000)) := by
  obtain ⟨lf, l1, l2⟩ := break_lit
  unfold labFunc
  have e : ((t <. lit 0.008856 : Bool)) = decide (t.val < (lit 0.008856 : F32).val) := FP.lt_fin hf lf
  rw [e]
  by_cases h : t.val < (lit 0.008856 : F32).val
  · left
    rw [if_pos (by simpa using h)]
    refine ⟨?_, linear_close hf h0 (by linarith)⟩
    have : ((t.val : ℚ) : ℝ) ≤ ((0.0088561 : ℚ) : ℝ) := by exact_mod_cast h.le.trans l2
    norm_num at this ⊢; exact this
  · right
    rw [if_neg (by simpa using h)]
    refine ⟨?_, root_close hL hf (le_trans (by norm_num) (l1.trans (not_lt.1 h))) h1⟩
    have : ((0.0088559 : ℚ) : ℝ) ≤ ((t.val : ℚ) : ℝ) := by exact_mod_cast l1.trans (not_lt.1 h)
    norm_num at this ⊢; exact this

theorem break2_lit : (lit 0.20689303 : F32).fin = true ∧ (0.206893 : ℚ) ≤ (lit 0.20689303 : F32).val ∧
    (lit 0.20689303 : F32).val ≤ 0.2068931 := by
  show (FP.ofRat b32 false 0.20689303).fin = true ∧ _ ≤ (FP.ofRat b32 false 0.20689303).val ∧ 
    (FP.ofRat b32 false 0.20689303).val ≤ _
  decide +kernel

/-- The same for the inverse. -/
theorem labInvFunc_cases {δ : ℝ} (hL : PowNear δ) {v : F32} (hf : v.fin = true) (h0 : -2 ≤ v.val) (h1 : v.val ≤ 1.4) :
    ((v.val : ℝ) ≤ 0.2068931 ∧ Close (labInvFunc v) (((v.val : ℝ) - 16 / 116) / 7.787) (1 / 10000000)) ∨
    ((0.206893 : ℝ) ≤ v.val ∧ Close (labInvFunc v) ((v.val : ℝ) ^ 3) δ) := by
  obtain ⟨lf, l1, l2⟩ := break2_lit
  unfold labInvFunc
  have e : ((lit 0.20689303 <. v : Bool)) = decide ((lit 0.20689303 : F32).val < v.val) := FP.lt_fin lf hf
  rw [e]
  have v0 : (-2 : ℝ) ≤ v.val := by exact_mod_cast h0
  by_cases h : (lit 0.20689303 : F32).val < v.val
  · right
    rw [if_pos (by simpa using h)]
    refine ⟨?_, ?_⟩
    · have : ((0.206893 : ℚ) : ℝ) ≤ ((v.val : ℚ) : ℝ) := by exact_mod_cast l1.trans h.le
      norm_num at this ⊢; exact this
    · have y : (FP.ofRat b32 false 3).fin = true ∧ (FP.ofRat b32 false 3).val = 3 := by decide +kernel
      have c := hL v (lit 3) hf y.1 (le_trans (by norm_num) (l1.trans h.le)) h1 (by rw [show (lit 3 : F32).val = 3 from y.2]; norm_num)
        (by rw [show (lit 3 : F32).val = 3 from y.2])
      rw [show (lit 3 : F32).val = 3 from y.2] at c
      refine c.congr ?_
      rw [show (((3 : ℚ)) : ℝ) = ((3 : ℕ) : ℝ) by norm_num, Real.rpow_natCast]
  · left
    rw [if_neg (by simpa using h)]
    have hv : (v.val : ℝ) ≤ 0.2068931 := by
      have : ((v.val : ℚ) : ℝ) ≤ ((0.2068931 : ℚ) : ℝ) := by exact_mod_cast (not_lt.1 h).trans l2
      norm_num at this ⊢; exact this
    refine ⟨hv, ?_⟩
    have nv : NearF v v.val 0 2 := NearF.of_fin hf (by rw [abs_le]; norm_num at hv; constructor <;> linarith)
    have n := (nv.sub 2 (by norm_num) ((NearF.lit_rep (B := 16) 16 (by decide +kernel) (by norm_num)).div 0
      (by norm_num) (m := 116) (NearF.lit_rep (B := 116) 116 (by decide +kernel) (by norm_num)) (by norm_num)
      (by norm_num) (by norm_num)) (by norm_num)).div 0 (by norm_num) (m := 7.787)
      (NearF.lit 3 7.787 (B := 7.787) (by norm_num) (by norm_num) (by norm_num)) (by norm_num)
      (by norm_num) (by norm_num)
    exact n.is (by norm_num) (by norm_num)

/-- Through the curve, slightly changed, and back. `U` bounds the cube root of the argument. -/
theorem curve_trip {δ U η : ℝ} (hL : PowNear δ) (hδ : δ ≤ 1 / 1000000) (hU1 : 1 ≤ U) (hU : U ≤ 1.115) {t v : F32}
    (hf : t.fin = true) (h0 : -0.001 ≤ t.val) (ht : (t.val : ℝ) ≤ U ^ 3) (hv : v.fin = true)
    (e : |(v.val : ℝ) - (labFunc t).val| ≤ η) (hη : 7 / 10000000 ≤ η) (hη1 : η ≤ 1 / 100000) :
    Close (labInvFunc v) t.val ((1 + 3.01 * U ^ 2) * δ + 3.01 * U ^ 2 * (η + 1 / 10000000)) := by
  have δ0 := PowNear.nonneg hL
  have tl := low_real h0
  have t14' : (t.val : ℝ) ≤ 1.4 := ht.trans ((pow_le_pow_left₀ (by linarith) hU 3).trans (by norm_num))
  have t14 : t.val ≤ 1.4 := by
    have : ((t.val : ℚ) : ℝ) ≤ ((1.4 : ℚ) : ℝ) := by norm_num at t14' ⊢; exact t14'
    exact_mod_cast this
  have U2 : 1 ≤ U ^ 2 := one_le_pow₀ hU1
  have K1 : 3.01 * η + 3 / 10000000 + 4 * δ ≤ (1 + 3.01 * U ^ 2) * δ + 3.01 * U ^ 2 * (η + 1 / 10000000) := by nlinarith
  have range : (0 : ℝ) ≤ v.val → (v.val : ℝ) ≤ 1.4 → 0 ≤ v.val ∧ v.val ≤ 1.4 := fun a b => by
    refine ⟨by exact_mod_cast a, ?_⟩
    have : ((v.val : ℚ) : ℝ) ≤ ((1.4 : ℚ) : ℝ) := by norm_num at b ⊢; exact b
    exact_mod_cast this
  rw [abs_le] at e
  obtain ⟨e1, e2⟩ := e
  rcases labFunc_cases hL hf h0 t14 with ⟨tb, ⟨-, c⟩⟩ | ⟨tb, ⟨-, c⟩⟩
  · rw [abs_le] at c
    obtain ⟨c1, c2⟩ := c
    generalize ((labFunc t).val : ℝ) = f at *
    have g1 : (v.val : ℝ) ≤ (903.3 * (t.val : ℝ) + 16) / 116 + (η + 1 / 10000000) := by linarith
    have g2 : (903.3 * (t.val : ℝ) + 16) / 116 - (η + 1 / 10000000) ≤ (v.val : ℝ) := by linarith
    obtain ⟨v0, v1⟩ := range (by norm_num at g2; linarith) (by norm_num at g1 tb ⊢; linarith)
    rcases labInvFunc_cases hL hv (by linarith) v1 with ⟨vb, d⟩ | ⟨vb, d⟩
    · refine (close_clamp_exact d (d := 3 * η) ?_).mono (by linarith)
      rw [abs_le]; norm_num at g1 g2 tb ⊢
      constructor <;> linarith
    · norm_num at vb g1 tb
      obtain ⟨p1, p2⟩ := cube_near (u := v.val) (by norm_num; linarith) (by norm_num; linarith)
      refine (close_clamp_exact d (d := 3 * η) ?_).mono (by linarith)
      rw [abs_le]; norm_num at g1 g2 p1 p2 ⊢
      constructor <;> linarith
  · rw [abs_le] at c
    obtain ⟨c1, c2⟩ := c
    generalize ((labFunc t).val : ℝ) = f at *
    have t0 : (0 : ℝ) ≤ t.val := by norm_num at tb; linarith
    have u3 := cbrt_pow t0
    have uU : (t.val : ℝ) ^ (1 / 3 : ℝ) ≤ U := cbrt_le t0 (by linarith) ht
    have u0 : 0.20689 ≤ (t.val : ℝ) ^ (1 / 3 : ℝ) := le_cbrt t0 (by norm_num at tb ⊢; linarith)
    generalize (t.val : ℝ) ^ (1 / 3 : ℝ) = u at *
    have g1 : (v.val : ℝ) ≤ u + (δ + (η + 1 / 10000000)) := by linarith
    have g2 : u - (δ + (η + 1 / 10000000)) ≤ (v.val : ℝ) := by linarith
    have vp : (0 : ℝ) ≤ v.val := by norm_num at u0; linarith
    obtain ⟨v0, v1⟩ := range vp (by norm_num at hU ⊢; linarith)
    rcases labInvFunc_cases hL hv (by linarith) v1 with ⟨vb, d⟩ | ⟨vb, d⟩
    · norm_num at vb
      obtain ⟨p1, p2⟩ := cube_near u0 (by norm_num; linarith)
      rw [u3] at p1 p2
      refine (close_clamp_exact d (d := 3 * η) ?_).mono (by linarith)
      rw [abs_le]; norm_num at g1 g2 p1 p2 u0 ⊢
      constructor <;> linarith
    · have w : |(v.val : ℝ) ^ 3 - t.val| ≤ 3.01 * U ^ 2 * (δ + (η + 1 / 10000000)) := by
        rw [← u3, show (v.val : ℝ) ^ 3 - u ^ 3 = (v.val ^ 2 + v.val * u + u ^ 2) * (v.val - u) by ring, abs_mul]
        have a1 : |(v.val : ℝ) - u| ≤ δ + (η + 1 / 10000000) := by rw [abs_le]; constructor <;> linarith
        refine mul_le_mul ?_ a1 (abs_nonneg _) (by positivity)
        have vU : (v.val : ℝ) ≤ U * 1.00002 := by norm_num at g1 ⊢; linarith
        have up : 0 ≤ u := by linarith
        have b1 : (v.val : ℝ) ^ 2 ≤ (U * 1.00002) ^ 2 := pow_le_pow_left₀ vp vU 2
        have b2 : (v.val : ℝ) * u ≤ (U * 1.00002) * U := mul_le_mul vU uU up (by linarith)
        have b3 : u ^ 2 ≤ U ^ 2 := pow_le_pow_left₀ up uU 2
        rw [abs_of_nonneg (by positivity)]
        nlinarith
      refine (close_clamp_exact d w).mono (le_of_eq (by ring))

/-- A sum whose size is known. -/
theorem NearF.add' {x y : F32} {q r e d A B C : ℝ} (k : ℕ) (hk : k ≤ 100) (hx : NearF x q e A) (hy : NearF y r d B)
    (hC : |q + r| ≤ C) (hb : C + (e + d) ≤ 2 ^ k) : NearF (x +. y) (q + r) (e + d + 2 ^ k / 33554432) C := by
  show NearF (FP.add x y) _ _ _
  rw [FP.add_fin hx.close.fin hy.close.fin]
  refine NearF.round k hk ?_ hC hb
  push_cast
  calc |(x.val : ℝ) + y.val - (q + r)| = |(x.val - q) + (y.val - r)| := by ring_nf
    _ ≤ _ := abs_add_le _ _
    _ ≤ _ := add_le_add hx.close.err hy.close.err

theorem lit_int (z : ℕ) (hz : z ≤ 1000) : NearF (lit z : F32) z 0 z := by
  have h := FP.lit32 (z : ℤ) (by rw [abs_le]; constructor <;> omega)
  have := NearF.lit_rep (B := (z : ℝ)) (z : ℚ) (by push_cast at h; exact h) (by simp)
  push_cast at this; exact this

/-- The three curve values put into Lab and taken out again, with `a` and `b` changed by up to `ε` in between. -/
theorem lab_trip {fx fy fz A B : F32} {ε : ℝ} (hε : ε ≤ 1 / 100000) (hx : fx.fin = true) (hx0 : 0 ≤ (fx.val : ℝ)) (hx1 : (fx.val : ℝ) ≤ 1.12)
    (hy : fy.fin = true) (hy0 : 0 ≤ (fy.val : ℝ)) (hy1 : (fy.val : ℝ) ≤ 1.05)
    (hz : fz.fin = true) (hz0 : 0 ≤ (fz.val : ℝ)) (hz1 : (fz.val : ℝ) ≤ 1.12)
    (hA : Close A ((lit 500 *. (fx -. fy)) /. lit 128 : F32).val ε)
    (hB : Close B ((lit 200 *. (fy -. fz)) /. lit 128 : F32).val ε) :
    Close ((((lit 116 *. fy -. lit 16) /. lit 100) *. lit 100 +. lit 16) /. lit 116 : F32) fy.val (7 / 10000000) ∧
    Close (A *. lit 128 /. lit 500 +.
      (((lit 116 *. fy -. lit 16) /. lit 100) *. lit 100 +. lit 16) /. lit 116 : F32) fx.val (7 / 10000000 + 0.256 * ε) ∧
    Close ((((lit 116 *. fy -. lit 16) /. lit 100) *. lit 100 +. lit 16) /. lit 116 -.
      B *. lit 128 /. lit 200 : F32) fz.val (7 / 10000000 + 0.64 * ε) := by
  have l116 : NearF (lit 116 : F32) 116 0 116 := by exact_mod_cast lit_int 116 (by norm_num)
  have l16 : NearF (lit 16 : F32) 16 0 16 := by exact_mod_cast lit_int 16 (by norm_num)
  have l100 : NearF (lit 100 : F32) 100 0 100 := by exact_mod_cast lit_int 100 (by norm_num)
  have l128 : NearF (lit 128 : F32) 128 0 128 := by exact_mod_cast lit_int 128 (by norm_num)
  have l500 : NearF (lit 500 : F32) 500 0 500 := by exact_mod_cast lit_int 500 (by norm_num)
  have l200 : NearF (lit 200 : F32) 200 0 200 := by exact_mod_cast lit_int 200 (by norm_num)
  have nx : NearF fx fx.val 0 1.12 := NearF.of_fin hx (by rw [abs_of_nonneg hx0]; exact hx1)
  have ny : NearF fy fy.val 0 1.05 := NearF.of_fin hy (by rw [abs_of_nonneg hy0]; exact hy1)
  have nz : NearF fz fz.val 0 1.12 := NearF.of_fin hz (by rw [abs_of_nonneg hz0]; exact hz1)
  norm_num at hx1 hy1 hz1
  have ry : NearF ((((lit 116 *. fy -. lit 16) /. lit 100) *. lit 100 +. lit 16) /. lit 116 : F32) fy.val
      (28 / 100000000) 1.12 := by
    have a1 := ((l116.mul 7 (by norm_num) ny (by norm_num)).sub' 7 (by norm_num) l16
      (C := 110) (by rw [abs_le]; constructor <;> linarith) (by norm_num)).div 1 (by norm_num) (m := 100) l100
      (by norm_num) (by norm_num) (by norm_num)
    have a2 := ((a1.mul 7 (by norm_num) l100 (by norm_num)).add' 7 (by norm_num) l16 (C := 127)
      (by rw [abs_le]; constructor <;> linarith) (by norm_num)).div 1 (by norm_num) (m := 116) l116
      (by norm_num) (by norm_num) (by norm_num)
    exact (a2.congr (by ring)).mono (by norm_num) (by norm_num)
  refine ⟨ry.close.mono (by norm_num), ?_, ?_⟩
  · have a1 := (l500.mul 10 (by norm_num) (nx.sub' 1 (by norm_num) ny (C := 1.12)
      (by rw [abs_le]; constructor <;> norm_num <;> linarith) (by norm_num)) (by norm_num)).div 3 (by norm_num)
      (m := 128) l128 (by norm_num) (by norm_num) (by norm_num)
    have a1' : NearF A _ _ _ := ⟨close_clamp_exact hA a1.close.err, a1.le⟩
    have a2 := (a1'.mul 10 (by norm_num) l128 (by norm_num; linarith)).div 1 (by norm_num) (m := 500) l500 (by norm_num)
      (by norm_num) (by norm_num; linarith)
    have a3 := (a2.congr (show _ = (fx.val : ℝ) - fy.val by ring)).add' 1 (by norm_num) ry (C := 1.12)
      (by rw [abs_le]; constructor <;> norm_num <;> linarith) (by norm_num; linarith)
    exact a3.is (by ring) (by norm_num; linarith)
  · have a1 := (l200.mul 8 (by norm_num) (ny.sub' 1 (by norm_num) nz (C := 1.12)
      (by rw [abs_le]; constructor <;> norm_num <;> linarith) (by norm_num)) (by norm_num)).div 1 (by norm_num)
      (m := 128) l128 (by norm_num) (by norm_num) (by norm_num)
    have a1' : NearF B _ _ _ := ⟨close_clamp_exact hB a1.close.err, a1.le⟩
    have a2 := (a1'.mul 8 (by norm_num) l128 (by norm_num; linarith)).div 1 (by norm_num) (m := 200) l200 (by norm_num)
      (by norm_num) (by norm_num; linarith)
    have a3 := ry.sub' 1 (by norm_num) (a2.congr (show _ = (fy.val : ℝ) - fz.val by ring)) (C := 1.12)
      (by rw [abs_le]; constructor <;> norm_num <;> linarith) (by norm_num; linarith)
    exact a3.is (by ring) (by norm_num; linarith)

/-- The white points as binary32 numbers. -/
theorem white_near (i : Illuminant) (o : Observer) :
    NearF (get_refs i o : F32 × F32 × F32).1 (whitePoint i o).1 (1 / 16777216) 1 ∧
    NearF (get_refs i o : F32 × F32 × F32).2.1 (whitePoint i o).2.1 (1 / 16777216) 1 ∧
    NearF (get_refs i o : F32 × F32 × F32).2.2 (whitePoint i o).2.2 (1 / 16777216) 1.0889 ∧
    0.948 ≤ (whitePoint i o).1 ∧ (whitePoint i o).2.1 = 1 ∧ 0.8142 ≤ (whitePoint i o).2.2 := by
  have small : ∀ q : ℚ, ∀ r : ℝ, (q : ℝ) = r → |r| ≤ 1 → NearF (lit q : F32) r (1 / 16777216) 1 := fun q r e h =>
    ((NearF.lit 0 q (B := 1) (by norm_num) (by rw [e]; exact h) (by norm_num)).congr e).mono (by norm_num) le_rfl
  have big : ∀ q : ℚ, ∀ r : ℝ, (q : ℝ) = r → |r| ≤ 1.0889 → NearF (lit q : F32) r (1 / 16777216) 1.0889 := fun q r e h =>
    ((NearF.lit 1 q (B := 1.0889) (by norm_num) (by rw [e]; exact h) (by norm_num)).congr e).mono (by norm_num) le_rfl
  cases i <;> cases o <;>
    exact ⟨small _ _ (by unfold whitePoint; norm_num) (by unfold whitePoint; norm_num [abs_le]),
      small _ _ (by unfold whitePoint; norm_num) (by unfold whitePoint; norm_num [abs_le]),
      big _ _ (by unfold whitePoint; norm_num) (by unfold whitePoint; norm_num [abs_le]),
      by unfold whitePoint; norm_num, by unfold whitePoint; norm_num, by unfold whitePoint; norm_num⟩

omit [Libm b32] in
theorem ofRat_nonneg {s : Bool} {q : ℚ} (h0 : 0 ≤ q) (h1 : q ≤ 16) :
    (FP.ofRat b32 s q).fin = true ∧ 0 ≤ (FP.ofRat b32 s q).val := by
  have h := FP.ofRat_small (s := s) (q := q) (k := 4) (by decide) (by decide)
    (by rw [abs_of_nonneg h0]; exact h1.trans (by decide))
  exact ⟨h.1, by rw [h.2]; exact rn_nonneg h0⟩

/-- A channel divided by the white point. -/
theorem ratio_near {x w : F32} {wp W U : ℝ} (hf : x.fin = true) (h0 : -0.0001 ≤ (x.val : ℝ)) (h1 : (x.val : ℝ) ≤ 1.1)
    (hw : NearF w wp (1 / 16777216) W) (hw0 : 0.8142 ≤ wp) (hW : W ≤ 1.1)
    (hxU : (x.val : ℝ) + 1 / 1000000 ≤ U ^ 3 * wp) :
    (x /. w).fin = true ∧ -0.001 ≤ (x /. w).val ∧ ((x /. w).val : ℝ) ≤ U ^ 3 ∧
    Close (x /. w) (x.val / wp) (2 / 10000000) := by
  have nx : NearF x x.val 0 1.1 := NearF.of_fin hf (by rw [abs_le]; norm_num at h0 h1 ⊢; constructor <;> linarith)
  have wpp : (0 : ℝ) < wp := by norm_num at hw0; linarith
  have n := nx.div 1 (by norm_num) (m := 0.8142) hw (by rw [abs_of_pos wpp]; exact hw0) (by norm_num) (by norm_num)
  have c : Close (x /. w) (x.val / wp) (2 / 10000000) := n.close.mono (by norm_num)
  refine ⟨c.fin, ?_, ?_, c⟩
  · have ce := c.err
    rw [abs_le] at ce
    have : -(1 / 5000) ≤ (x.val : ℝ) / wp := by
      rw [le_div_iff₀ wpp]; norm_num at h0 hw0 ⊢; linarith
    have : ((-0.001 : ℚ) : ℝ) ≤ (((x /. w).val : ℚ) : ℝ) := by norm_num; linarith
    exact_mod_cast this
  · have ce := c.err
    rw [abs_le] at ce
    have : (x.val : ℝ) / wp ≤ U ^ 3 - 2 / 10000000 := by
      rw [div_le_iff₀ wpp]
      have := hw.le
      rw [abs_of_pos wpp] at this
      nlinarith
    linarith

/-- The value of the curve is in [0, U + 2·10^-6]. -/
theorem labFunc_range {δ U : ℝ} (hL : PowNear δ) (hδ : δ ≤ 1 / 1000000) (hU1 : 1 ≤ U) (hU : U ≤ 1.115) {t : F32}
    (hf : t.fin = true) (h0 : -0.001 ≤ t.val) (ht : (t.val : ℝ) ≤ U ^ 3) :
    (labFunc t).fin = true ∧ 0 ≤ ((labFunc t).val : ℝ) ∧ ((labFunc t).val : ℝ) ≤ U + 2 / 1000000 := by
  have tl := low_real h0
  have t14' : (t.val : ℝ) ≤ 1.4 := ht.trans ((pow_le_pow_left₀ (by linarith) hU 3).trans (by norm_num))
  have t14 : t.val ≤ 1.4 := by
    have : ((t.val : ℚ) : ℝ) ≤ ((1.4 : ℚ) : ℝ) := by norm_num at t14' ⊢; exact t14'
    exact_mod_cast this
  rcases labFunc_cases hL hf h0 t14 with ⟨tb, ⟨f, c⟩⟩ | ⟨tb, ⟨f, c⟩⟩ <;> rw [abs_le] at c <;>
    obtain ⟨c1, c2⟩ := c
  · refine ⟨f, ?_, ?_⟩
    · norm_num at c1 tl; linarith
    · norm_num at c2 tb; linarith
  · have t0 : (0 : ℝ) ≤ t.val := by norm_num at tb; linarith
    have uU : (t.val : ℝ) ^ (1 / 3 : ℝ) ≤ U := cbrt_le t0 (by linarith) ht
    have u0 : 0.20689 ≤ (t.val : ℝ) ^ (1 / 3 : ℝ) := le_cbrt t0 (by norm_num at tb ⊢; linarith)
    generalize (t.val : ℝ) ^ (1 / 3 : ℝ) = u at *
    refine ⟨f, ?_, ?_⟩
    · norm_num at c1 u0; linarith
    · linarith

/-- One channel through Lab and back. -/
theorem channel_trip {δ U W wp η : ℝ} (hL : PowNear δ) (hδ : δ ≤ 1 / 1000000) (hU1 : 1 ≤ U) (hU : U ≤ 1.115)
    {x w v : F32} (hf : x.fin = true) (h0 : -0.0001 ≤ (x.val : ℝ)) (h1 : (x.val : ℝ) ≤ 1.1)
    (hw : NearF w wp (1 / 16777216) W) (hw0 : 0.8142 ≤ wp) (hW : W ≤ 1.1)
    (hxU : (x.val : ℝ) + 1 / 1000000 ≤ U ^ 3 * wp) (hv : v.fin = true)
    (e : |(v.val : ℝ) - (labFunc (x /. w)).val| ≤ η) (hη : 7 / 10000000 ≤ η)
    (hη1 : η ≤ 1 / 100000) :
    Close (labInvFunc v *. w) x.val
      (W * ((1 + 3.01 * U ^ 2) * δ + 3.01 * U ^ 2 * (η + 1 / 10000000)) + 45 / 100000000) := by
  have δ0 := PowNear.nonneg hL
  obtain ⟨tf, t0, t1, tc⟩ := ratio_near hf h0 h1 hw hw0 hW hxU
  have c := curve_trip hL hδ hU1 hU tf t0 t1 hv e hη hη1
  have wpp : (0 : ℝ) < wp := by norm_num at hw0; linarith
  set K := (1 + 3.01 * U ^ 2) * δ + 3.01 * U ^ 2 * (η + 1 / 10000000) with hK
  have U2 : U ^ 2 ≤ 1.2433 := (pow_le_pow_left₀ (by linarith) hU 2).trans (by norm_num)
  have K1 : K ≤ 1 / 10000 := by rw [hK]; norm_num at U2; nlinarith
  have K0 : 0 ≤ K := by positivity
  have W0 : wp ≤ W := by have := hw.le; rwa [abs_of_pos wpp] at this
  have q := close_clamp_exact c tc.err
  have n : NearF (labInvFunc v) (x.val / wp) (K + 2 / 10000000) 1.36 := by
    refine ⟨q, ?_⟩
    rw [abs_div, abs_of_pos wpp, div_le_iff₀ wpp, abs_le]
    norm_num at h0 h1 hw0 ⊢; constructor <;> linarith
  have m := n.mul 1 (by norm_num) hw (by norm_num at hW ⊢; nlinarith)
  refine m.is (div_mul_cancel₀ _ wpp.ne') ?_
  norm_num at hW ⊢; nlinarith

/-- Three channels through Lab and back, with `a` and `b` changed by up to `ε` in between. -/
theorem xyz_trip {δ ε U0 U1 U2 : ℝ} (hL : PowNear δ) (hδ : δ ≤ 1 / 1000000) (i : Illuminant) (o : Observer)
    (c : Col F32) (h : XyzRange c) (hU0 : 1 ≤ U0) (hU0' : U0 ≤ 1.106) (hU1 : 1 ≤ U1) (hU1' : U1 ≤ 1.04)
    (hU2 : 1 ≤ U2) (hU2' : U2 ≤ 1.106)
    (k0 : (c.c0.val : ℝ) + 1 / 1000000 ≤ U0 ^ 3 * (whitePoint i o).1)
    (k1 : (c.c1.val : ℝ) + 1 / 1000000 ≤ U1 ^ 3 * (whitePoint i o).2.1)
    (k2 : (c.c2.val : ℝ) + 1 / 1000000 ≤ U2 ^ 3 * (whitePoint i o).2.2)
    (A B al : F32) (hε : ε ≤ 1 / 100000) (hε0 : 0 ≤ ε)
    (hA : Close A (to_lab i o .xyz c).c1.val ε) (hB : Close B (to_lab i o .xyz c).c2.val ε) :
    let d := to_xyz (.lab i o) ⟨(to_lab i o .xyz c).c0, A, B, al⟩
    Close d.c0 c.c0.val ((1 + 3.01 * U0 ^ 2) * δ + 3.01 * U0 ^ 2 * (8 / 10000000 + 0.256 * ε) + 45 / 100000000) ∧
    Close d.c1 c.c1.val ((1 + 3.01 * U1 ^ 2) * δ + 3.01 * U1 ^ 2 * (8 / 10000000) + 45 / 100000000) ∧
    Close d.c2 c.c2.val (1.0889 * ((1 + 3.01 * U2 ^ 2) * δ + 3.01 * U2 ^ 2 * (8 / 10000000 + 0.64 * ε)) +
      45 / 100000000) ∧ d.alpha = al := by
  intro d
  have δ0 := PowNear.nonneg hL
  obtain ⟨w0, w1, w2, b0, b1, b2⟩ := white_near i o
  obtain ⟨⟨f0, p0, q0⟩, ⟨f1, p1, q1⟩, ⟨f2, p2, q2⟩, fa⟩ := h
  have b1' : (0.8142 : ℝ) ≤ (whitePoint i o).2.1 := by rw [b1]; norm_num
  have b0' : (0.8142 : ℝ) ≤ (whitePoint i o).1 := le_trans (by norm_num) b0
  have v0' : U0 ≤ 1.115 := hU0'.trans (by norm_num)
  have v1' : U1 ≤ 1.115 := hU1'.trans (by norm_num)
  have v2' : U2 ≤ 1.115 := hU2'.trans (by norm_num)
  obtain ⟨t0, u0, v0, -⟩ := ratio_near f0 p0 q0 w0 b0' (by norm_num) k0
  obtain ⟨t1, u1, v1, -⟩ := ratio_near f1 p1 q1 w1 b1' (by norm_num) k1
  obtain ⟨t2, u2, v2, -⟩ := ratio_near f2 p2 q2 w2 b2 (by norm_num) k2
  obtain ⟨g0, x0, y0⟩ := labFunc_range hL hδ hU0 v0' t0 u0 v0
  obtain ⟨g1, x1, y1⟩ := labFunc_range hL hδ hU1 v1' t1 u1 v1
  obtain ⟨g2, x2, y2⟩ := labFunc_range hL hδ hU2 v2' t2 u2 v2
  obtain ⟨l1, l0, l2⟩ := lab_trip hε g0 x0 (by norm_num at hU0' ⊢; linarith) g1 x1 (by norm_num at hU1' ⊢; linarith)
    g2 x2 (by norm_num at hU2' ⊢; linarith) hA hB
  norm_num at l0 l2
  refine ⟨?_, ?_, ?_, rfl⟩
  · exact (channel_trip hL hδ hU0 v0' f0 p0 q0 w0 b0' (by norm_num) k0 l0.fin l0.err (by linarith)
      (by linarith)).mono (le_of_eq (by ring))
  · exact (channel_trip hL hδ hU1 v1' f1 p1 q1 w1 b1' (by norm_num) k1 l1.fin l1.err (by linarith)
      (by linarith)).mono (le_of_eq (by ring))
  · exact (channel_trip hL hδ hU2 v2' f2 p2 q2 w2 b2 (by norm_num) k2 l2.fin l2.err (by linarith)
      (by linarith)).mono (le_of_eq (by ring))

/-- The three Lab channels from the three curve values. -/
theorem lab_close {fx fy fz : F32} {x y z e : ℝ} (hx : Close fx x e) (hy : Close fy y e) (hz : Close fz z e)
    (bx : 0 ≤ x ∧ x ≤ 1.12) (bY : 0 ≤ y ∧ y ≤ 1.05) (bz : 0 ≤ z ∧ z ≤ 1.12) (he : e ≤ 1 / 50000) :
    Close ((lit 116 *. fy -. lit 16) /. lit 100 : F32) ((116 * y - 16) / 100) (8 * e + 1 / 1000000) ∧
    Close ((lit 500 *. (fx -. fy)) /. lit 128 : F32) (500 * (x - y) / 128) (8 * e + 1 / 1000000) ∧
    Close ((lit 200 *. (fy -. fz)) /. lit 128 : F32) (200 * (y - z) / 128) (8 * e + 1 / 1000000) := by
  have e0 := (abs_nonneg _).trans hx.err
  have l116 : NearF (lit 116 : F32) 116 0 116 := by exact_mod_cast lit_int 116 (by norm_num)
  have l16 : NearF (lit 16 : F32) 16 0 16 := by exact_mod_cast lit_int 16 (by norm_num)
  have l100 : NearF (lit 100 : F32) 100 0 100 := by exact_mod_cast lit_int 100 (by norm_num)
  have l128 : NearF (lit 128 : F32) 128 0 128 := by exact_mod_cast lit_int 128 (by norm_num)
  have l500 : NearF (lit 500 : F32) 500 0 500 := by exact_mod_cast lit_int 500 (by norm_num)
  have l200 : NearF (lit 200 : F32) 200 0 200 := by exact_mod_cast lit_int 200 (by norm_num)
  have nx : NearF fx x e 1.12 := ⟨hx, by rw [abs_of_nonneg bx.1]; exact bx.2⟩
  have ny : NearF fy y e 1.05 := ⟨hy, by rw [abs_of_nonneg bY.1]; exact bY.2⟩
  have nz : NearF fz z e 1.12 := ⟨hz, by rw [abs_of_nonneg bz.1]; exact bz.2⟩
  obtain ⟨x0, x1⟩ := bx
  obtain ⟨y0, y1⟩ := bY
  obtain ⟨z0, z1⟩ := bz
  norm_num at x1 y1 z1
  refine ⟨?_, ?_, ?_⟩
  · have a1 := ((l116.mul 7 (by norm_num) ny (by norm_num; linarith)).sub' 7 (by norm_num) l16
      (C := 110) (by rw [abs_le]; constructor <;> linarith) (by norm_num; linarith)).div 1 (by norm_num) (m := 100) l100
      (by norm_num) (by norm_num) (by norm_num; linarith)
    exact a1.is rfl (by norm_num; linarith)
  · have a1 := (l500.mul 10 (by norm_num) (nx.sub' 1 (by norm_num) ny (C := 1.12)
      (by rw [abs_le]; constructor <;> norm_num <;> linarith) (by norm_num; linarith)) (by norm_num; linarith)).div 3 (by norm_num)
      (m := 128) l128 (by norm_num) (by norm_num) (by norm_num; linarith)
    exact a1.is rfl (by norm_num; linarith)
  · have a1 := (l200.mul 8 (by norm_num) (ny.sub' 1 (by norm_num) nz (C := 1.12)
      (by rw [abs_le]; constructor <;> norm_num <;> linarith) (by norm_num; linarith)) (by norm_num; linarith)).div 1 (by norm_num)
      (m := 128) l128 (by norm_num) (by norm_num) (by norm_num; linarith)
    exact a1.is rfl (by norm_num; linarith)

/-- The Lab values of an XYZ colour are finite numbers. -/
theorem lab_fin {δ : ℝ} (hL : PowNear δ) (hδ : δ ≤ 1 / 1000000) (i : Illuminant) (o : Observer)
    (c : Col F32) (h : XyzRange c) :
    ((to_lab i o .xyz c).c0.fin = true ∧ |((to_lab i o .xyz c).c0.val : ℝ)| ≤ 1.2) ∧
    ((to_lab i o .xyz c).c1.fin = true ∧ |((to_lab i o .xyz c).c1.val : ℝ)| ≤ 4.4) ∧
    ((to_lab i o .xyz c).c2.fin = true ∧ |((to_lab i o .xyz c).c2.val : ℝ)| ≤ 1.8) := by
  obtain ⟨w0, w1, w2, b0, b1, b2⟩ := white_near i o
  obtain ⟨⟨f0, p0, q0⟩, ⟨f1, p1, q1⟩, ⟨f2, p2, q2⟩, fa⟩ := h
  obtain ⟨t0, u0, v0, -⟩ := ratio_near (U := 1.106) f0 p0 q0 w0 (le_trans (by norm_num) b0) (by norm_num)
    (by norm_num at q0 b0 ⊢; linarith)
  obtain ⟨t1, u1, v1, -⟩ := ratio_near (U := 1.04) f1 p1 q1 w1 (by rw [b1]; norm_num) (by norm_num)
    (by rw [b1]; norm_num at q1 ⊢; linarith)
  obtain ⟨t2, u2, v2, -⟩ := ratio_near (U := 1.106) f2 p2 q2 w2 b2 (by norm_num) (by norm_num at q2 b2 ⊢; linarith)
  obtain ⟨g0, x0, y0⟩ := labFunc_range hL hδ (by norm_num) (by norm_num) t0 u0 v0
  obtain ⟨g1, x1, y1⟩ := labFunc_range hL hδ (by norm_num) (by norm_num) t1 u1 v1
  obtain ⟨g2, x2, y2⟩ := labFunc_range hL hδ (by norm_num) (by norm_num) t2 u2 v2
  obtain ⟨l0, l1, l2⟩ := lab_close (e := 0) (close_self g0 le_rfl) (close_self g1 le_rfl) (close_self g2 le_rfl)
    ⟨x0, by norm_num at y0 ⊢; linarith⟩ ⟨x1, by norm_num at y1 ⊢; linarith⟩ ⟨x2, by norm_num at y2 ⊢; linarith⟩
    (by norm_num)
  have e0 := l0.err
  have e1 := l1.err
  have e2 := l2.err
  norm_num at y0 y1 y2
  refine ⟨⟨l0.fin, ?_⟩, ⟨l1.fin, ?_⟩, ⟨l2.fin, ?_⟩⟩
  · change |(((lit 116 *. labFunc (c.c1 /. (get_refs i o).2.1) -. lit 16) /. lit 100 : F32).val : ℝ)| ≤ _
    rw [abs_le] at e0 ⊢; norm_num at e0 ⊢; constructor <;> linarith
  · change |(((lit 500 *. (labFunc (c.c0 /. (get_refs i o).1) -. labFunc (c.c1 /. (get_refs i o).2.1))) /. lit 128 : F32).val : ℝ)| ≤ _
    rw [abs_le] at e1 ⊢; norm_num at e1 ⊢; constructor <;> linarith
  · change |(((lit 200 *. (labFunc (c.c1 /. (get_refs i o).2.1) -. labFunc (c.c2 /. (get_refs i o).2.2))) /. lit 128 : F32).val : ℝ)| ≤ _
    rw [abs_le] at e2 ⊢; norm_num at e2 ⊢; constructor <;> linarith

/-- C112: XYZ to Lab and back in 32-bit numbers, for `powf` within `δ`: the result is finite, alpha is the same
and the other channels are within 6δ + 4.2·10^-6. -/
theorem C112_xyz_round_trip (δ : ℝ) (hL : PowNear δ) (hδ : δ ≤ 1 / 1000000) (i : Illuminant) (o : Observer)
    (c : Col F32) (h : XyzRange c) :
    CloseCol (6 * δ + 4.2 / 1000000) (to_xyz (.lab i o) (to_lab i o .xyz c)) (exact c) ∧
    (to_xyz (.lab i o) (to_lab i o .xyz c)).alpha = c.alpha := by
  have δ0 := PowNear.nonneg hL
  obtain ⟨w0, w1, w2, b0, b1, b2⟩ := white_near i o
  obtain ⟨-, ⟨fA, -⟩, ⟨fB, -⟩⟩ := lab_fin hL hδ i o c h
  obtain ⟨d0, d1, d2, -⟩ := xyz_trip (U0 := 1.106) (U1 := 1.04) (U2 := 1.106) (ε := 0) hL hδ i o c h (by norm_num)
    (by norm_num) (by norm_num) (by norm_num) (by norm_num) (by norm_num)
    (by have := h.c0.2.2; norm_num at this b0 ⊢; linarith) (by have := h.c1.2.2; rw [b1]; norm_num at this ⊢; linarith)
    (by have := h.c2.2.2; norm_num at this b2 ⊢; linarith) _ _ c.alpha (by norm_num) le_rfl
    (close_self fA le_rfl) (close_self fB le_rfl)
  refine ⟨⟨d0.mono ?_, d1.mono ?_, d2.mono ?_, close_self h.alpha (by positivity)⟩, rfl⟩ <;> norm_num <;> linarith

/-- One XYZ channel of an RGB colour. -/
theorem xyz_row {x y z : F32} (hx : x.fin = true ∧ 0 ≤ x.val ∧ x.val ≤ 1) (hy : y.fin = true ∧ 0 ≤ y.val ∧ y.val ≤ 1)
    (hz : z.fin = true ∧ 0 ≤ z.val ∧ z.val ≤ 1) (a b d : ℚ) (ha : 0 ≤ a) (hb : 0 ≤ b) (hd : 0 ≤ d)
    (hab : a + b ≤ 0.999) (habd : a + b + d ≤ 1.1) (hd1 : d ≤ 0.999) :
    NearF (x *. lit a +. y *. lit b +. z *. lit d) ((x.val : ℝ) * a + (y.val : ℝ) * b + (z.val : ℝ) * d)
      (27 / 100000000) ((a : ℝ) + b + d) := by
  have ha' : (0 : ℝ) ≤ a := by exact_mod_cast ha
  have hb' : (0 : ℝ) ≤ b := by exact_mod_cast hb
  have hd' : (0 : ℝ) ≤ d := by exact_mod_cast hd
  have hab' : (a : ℝ) + b ≤ 0.999 := by
    have : ((a + b : ℚ) : ℝ) ≤ ((0.999 : ℚ) : ℝ) := by exact_mod_cast hab
    norm_num at this ⊢; exact this
  have habd' : (a : ℝ) + b + d ≤ 1.1 := by
    have : ((a + b + d : ℚ) : ℝ) ≤ ((1.1 : ℚ) : ℝ) := by exact_mod_cast habd
    norm_num at this ⊢; exact this
  have hd1' : (d : ℝ) ≤ 0.999 := by
    have : ((d : ℚ) : ℝ) ≤ ((0.999 : ℚ) : ℝ) := by exact_mod_cast hd1
    norm_num at this ⊢; exact this
  have m : ∀ {x : F32} {a : ℚ}, (x.fin = true ∧ 0 ≤ x.val ∧ x.val ≤ 1) → (0 : ℝ) ≤ a → (a : ℝ) ≤ 0.999 →
      NearF (x *. lit a) ((x.val : ℝ) * a) (2 / 33554432) a := fun {x a} hx ha ha1 => by
    norm_num at ha1
    refine ((NearF.unit hx).mul 0 (by norm_num) (NearF.lit 0 a (B := a) (by norm_num) (by rw [abs_of_nonneg ha])
      (by linarith)) (by norm_num; linarith)).mono (by norm_num) (by rw [one_mul])
  have mx := m hx ha' (by linarith)
  have my := m hy hb' (by linarith)
  have mz := m hz hd' hd1'
  norm_num at hab' habd' hd1'
  have s1 := mx.add 0 (by norm_num) my (by norm_num; linarith)
  have s2 := s1.add 1 (by norm_num) mz (by norm_num; linarith)
  exact s2.mono (by norm_num) le_rfl

/-- The XYZ values of an RGB colour: near the exact ones, and how large they can be. -/
theorem rgb_xyz_near (c : Col F32) (h : UnitCol c) :
    NearF (to_xyz .rgb c).c0 ((c.c0.val : ℝ) * 0.412453 + (c.c1.val : ℝ) * 0.357580 + (c.c2.val : ℝ) * 0.180423)
      (27 / 100000000) 0.950456 ∧
    NearF (to_xyz .rgb c).c1 ((c.c0.val : ℝ) * 0.212671 + (c.c1.val : ℝ) * 0.715160 + (c.c2.val : ℝ) * 0.072169)
      (27 / 100000000) 1 ∧
    NearF (to_xyz .rgb c).c2 ((c.c0.val : ℝ) * 0.019334 + (c.c1.val : ℝ) * 0.119193 + (c.c2.val : ℝ) * 0.950227)
      (27 / 100000000) 1.088754 ∧ XyzRange (to_xyz .rgb c) := by
  have r0 := xyz_row h.c0 h.c1 h.c2 0.412453 0.357580 0.180423 (by norm_num) (by norm_num) (by norm_num) (by norm_num)
    (by norm_num) (by norm_num)
  have r1 := xyz_row h.c0 h.c1 h.c2 0.212671 0.715160 0.072169 (by norm_num) (by norm_num) (by norm_num) (by norm_num)
    (by norm_num) (by norm_num)
  have r2 := xyz_row h.c0 h.c1 h.c2 0.019334 0.119193 0.950227 (by norm_num) (by norm_num) (by norm_num) (by norm_num)
    (by norm_num) (by norm_num)
  have n0 := (r0.congr (r := (c.c0.val : ℝ) * 0.412453 + (c.c1.val : ℝ) * 0.357580 + (c.c2.val : ℝ) * 0.180423)
    (by norm_num)).mono (B := 0.950456) le_rfl (by norm_num)
  have n1 := (r1.congr (r := (c.c0.val : ℝ) * 0.212671 + (c.c1.val : ℝ) * 0.715160 + (c.c2.val : ℝ) * 0.072169)
    (by norm_num)).mono (B := 1) le_rfl (by norm_num)
  have n2 := (r2.congr (r := (c.c0.val : ℝ) * 0.019334 + (c.c1.val : ℝ) * 0.119193 + (c.c2.val : ℝ) * 0.950227)
    (by norm_num)).mono (B := 1.088754) le_rfl (by norm_num)
  have x0 : (0 : ℝ) ≤ c.c0.val := by exact_mod_cast h.c0.2.1
  have y0 : (0 : ℝ) ≤ c.c1.val := by exact_mod_cast h.c1.2.1
  have z0 : (0 : ℝ) ≤ c.c2.val := by exact_mod_cast h.c2.2.1
  have rg : ∀ {x : F32} {q B : ℝ}, NearF x q (27 / 100000000) B → 0 ≤ q → B ≤ 1.09 →
      x.fin = true ∧ -0.0001 ≤ (x.val : ℝ) ∧ (x.val : ℝ) ≤ 1.1 := fun {x q B} n hq hB => by
    have a := n.close.err
    have b := n.le
    rw [abs_le] at a b
    norm_num at hB ⊢
    exact ⟨n.close.fin, by linarith, by linarith⟩
  exact ⟨n0, n1, n2, rg n0 (by positivity) (by norm_num), rg n1 (by positivity) (by norm_num),
    rg n2 (by positivity) (by norm_num), h.alpha.1⟩

/-- The curve as computed, for an argument that is slightly off. -/
theorem labFunc_near {δ e s : ℝ} (hL : PowNear δ) {t : F32} (hf : t.fin = true) (h0 : -0.001 ≤ t.val) (h1 : t.val ≤ 1.4)
    (he : |(t.val : ℝ) - s| ≤ e) (he1 : e ≤ 1 / 1000000) :
    Close (labFunc t) (cieCurve s) (δ + 7.8 * e + 5 / 10000000) := by
  have δ0 := PowNear.nonneg hL
  have e0 := (abs_nonneg _).trans he
  rw [abs_le] at he
  obtain ⟨he2, he3⟩ := he
  -- the root near the break
  have root : ∀ {r u : ℝ}, u ^ 3 = r → 0.20689 ≤ u → u ≤ 0.20692 →
      0.20689 + 7.785 * (r - 0.20689 ^ 3) ≤ u ∧ u ≤ 0.20689 + 7.7876 * (r - 0.20689 ^ 3) := by
    intro r u hu h1 h2
    have k : r - 0.20689 ^ 3 = (u - 0.20689) * (u ^ 2 + u * 0.20689 + 0.20689 ^ 2) := by rw [← hu]; ring
    rw [k]
    norm_num at h1 h2
    have q1 : 7.785 * (u ^ 2 + u * 0.20689 + 0.20689 ^ 2) ≤ 1 := by norm_num; nlinarith
    have q2 : 1 ≤ 7.7876 * (u ^ 2 + u * 0.20689 + 0.20689 ^ 2) := by norm_num; nlinarith
    generalize u ^ 2 + u * 0.20689 + 0.20689 ^ 2 = q at *
    have w : 0 ≤ u - 0.20689 := by norm_num; linarith
    have m1 := mul_le_mul_of_nonneg_left q1 w
    have m2 := mul_le_mul_of_nonneg_left q2 w
    constructor <;> linarith
  unfold cieCurve
  rcases labFunc_cases hL hf h0 h1 with ⟨tb, c⟩ | ⟨tb, c⟩ <;> by_cases hc : s < 0.008856
  · rw [if_pos hc]
    refine (close_clamp_exact c (d := 7.8 * e) ?_).mono (by linarith)
    rw [abs_le]; norm_num; constructor <;> linarith
  · rw [if_neg hc]
    rw [_root_.not_lt] at hc
    norm_num at tb hc
    have hs : 0 ≤ s := by linarith
    have s3 := cbrt_pow hs
    obtain ⟨q1, q2⟩ := root s3 (le_cbrt hs (by norm_num; linarith)) (cbrt_le hs (by norm_num) (by norm_num; linarith))
    generalize s ^ (1 / 3 : ℝ) = u at *
    refine (close_clamp_exact c (d := 7.8 * e + 4 / 10000000) ?_).mono (by linarith)
    rw [abs_le]
    norm_num at q1 q2 ⊢; constructor <;> linarith
  · rw [if_pos hc]
    norm_num at tb hc
    have t0 : (0 : ℝ) ≤ t.val := by linarith
    have s3 := cbrt_pow t0
    obtain ⟨q1, q2⟩ := root s3 (le_cbrt t0 (by norm_num; linarith)) (cbrt_le t0 (by norm_num) (by norm_num; linarith))
    generalize (t.val : ℝ) ^ (1 / 3 : ℝ) = u at *
    refine (close_clamp_exact c (d := 7.8 * e + 4 / 10000000) ?_).mono (by linarith)
    rw [abs_le]
    norm_num at q1 q2 ⊢; constructor <;> linarith
  · rw [if_neg hc]
    rw [_root_.not_lt] at hc
    norm_num at tb hc
    have hs : 0 ≤ s := by linarith
    have s3 := cbrt_pow hs
    have t0 : (0 : ℝ) ≤ t.val := by linarith
    have t3 := cbrt_pow t0
    have u1 : 0.20689 ≤ s ^ (1 / 3 : ℝ) := le_cbrt hs (by norm_num; linarith)
    have u2 : 0.20689 ≤ (t.val : ℝ) ^ (1 / 3 : ℝ) := le_cbrt t0 (by norm_num; linarith)
    generalize (t.val : ℝ) ^ (1 / 3 : ℝ) = u at *
    generalize s ^ (1 / 3 : ℝ) = w at *
    refine (close_clamp_exact c (d := 7.8 * e) ?_).mono (by linarith)
    rw [← s3, ← t3] at he2 he3
    norm_num at u1 u2
    have d : u ^ 3 - w ^ 3 = (u - w) * (u ^ 2 + u * w + w ^ 2) := by ring
    rw [d] at he2 he3
    have g : (0.1283 : ℝ) ≤ u ^ 2 + u * w + w ^ 2 := by norm_num; nlinarith
    rw [abs_le]; norm_num at g ⊢
    constructor
    · by_contra hh
      push Not at hh
      nlinarith
    · by_contra hh
      push Not at hh
      nlinarith

omit [Libm b32] in
theorem cieCurve_range {t U : ℝ} (h0 : -0.001 ≤ t) (hU : 1 ≤ U) (h : t ≤ U ^ 3) : 0 ≤ cieCurve t ∧ cieCurve t ≤ U := by
  unfold cieCurve
  by_cases hc : t < 0.008856
  · rw [if_pos hc]
    norm_num at hc h0 ⊢
    exact ⟨by linarith, by linarith⟩
  · rw [if_neg hc]
    have h0 : 0 ≤ t := by rw [_root_.not_lt] at hc; norm_num at hc; linarith
    exact ⟨Real.rpow_nonneg h0 _, cbrt_le h0 (by linarith) h⟩

/-- C112: XYZ to Lab in 32-bit numbers, for `powf` within `δ`: all channels are within 8δ + 2·10^-5 of the CIE
formula. -/
theorem C112_to_lab (δ : ℝ) (hL : PowNear δ) (hδ : δ ≤ 1 / 1000000) (i : Illuminant) (o : Observer) (c : Col F32)
    (h : XyzRange c) :
    CloseCol (8 * δ + 2 / 100000) (to_lab i o .xyz c) (cieLab (whitePoint i o) (exact c)) ∧
    (to_lab i o .xyz c).alpha = c.alpha := by
  have δ0 := PowNear.nonneg hL
  obtain ⟨w0, w1, w2, b0, b1, b2⟩ := white_near i o
  obtain ⟨⟨f0, p0, q0⟩, ⟨f1, p1, q1⟩, ⟨f2, p2, q2⟩, fa⟩ := h
  have b1' : (0.8142 : ℝ) ≤ (whitePoint i o).2.1 := by rw [b1]; norm_num
  have b0' : (0.8142 : ℝ) ≤ (whitePoint i o).1 := le_trans (by norm_num) b0
  have ch : ∀ {x w : F32} {wp W U : ℝ}, x.fin = true → -0.0001 ≤ (x.val : ℝ) → (x.val : ℝ) ≤ 1.1 →
      NearF w wp (1 / 16777216) W → 0.8142 ≤ wp → W ≤ 1.1 → 1 ≤ U → U ≤ 1.115 → 1.1 + 1 / 1000000 ≤ U ^ 3 * wp →
      Close (labFunc (x /. w)) (cieCurve (x.val / wp)) (δ + 22 / 10000000) ∧
      0 ≤ cieCurve (x.val / wp) ∧ cieCurve (x.val / wp) ≤ U := by
    intro x w wp W U hf h0 h1 hw hw0 hW hU1 hU hxU
    have wpp : (0 : ℝ) < wp := by norm_num at hw0; linarith
    obtain ⟨tf, t0, t1, tc⟩ := ratio_near hf h0 h1 hw hw0 hW (U := U) (by linarith)
    have t14 : (x /. w).val ≤ 1.4 := by
      have : (((x /. w).val : ℚ) : ℝ) ≤ ((1.4 : ℚ) : ℝ) := by
        have := (t1.trans (pow_le_pow_left₀ (by linarith) hU 3)).trans (show (1.115 : ℝ) ^ 3 ≤ 1.4 by norm_num)
        norm_num at this ⊢; exact this
      exact_mod_cast this
    refine ⟨(labFunc_near hL tf t0 t14 tc.err (by norm_num)).mono (by norm_num; linarith),
      cieCurve_range ?_ hU1 ?_⟩
    · rw [le_div_iff₀ wpp]; norm_num at h0 hw0 ⊢; linarith
    · rw [div_le_iff₀ wpp]; linarith
  obtain ⟨c0, d0⟩ := ch f0 p0 q0 w0 b0' (by norm_num) (U := 1.106) (by norm_num) (by norm_num)
    (by norm_num at b0 ⊢; linarith)
  obtain ⟨c1, d1⟩ := ch f1 p1 q1 w1 b1' (by norm_num) (U := 1.04) (by norm_num) (by norm_num)
    (by rw [b1]; norm_num)
  obtain ⟨c2, d2⟩ := ch f2 p2 q2 w2 b2 (by norm_num) (U := 1.106) (by norm_num) (by norm_num)
    (by norm_num at b2 ⊢; linarith)
  obtain ⟨l0, l1, l2⟩ := lab_close c0 c1 c2 ⟨d0.1, d0.2.trans (by norm_num)⟩ ⟨d1.1, d1.2.trans (by norm_num)⟩
    ⟨d2.1, d2.2.trans (by norm_num)⟩ (by norm_num at hδ ⊢; linarith)
  exact ⟨⟨l0.mono (by linarith), l1.mono (by linarith), l2.mono (by linarith), close_self fa (by positivity)⟩, rfl⟩

/-- The inverse curve as computed, for an argument that is slightly off. -/
theorem labInvFunc_near {δ e s : ℝ} (hL : PowNear δ) {v : F32} (hf : v.fin = true) (h0 : -2 ≤ v.val)
    (he : |(v.val : ℝ) - s| ≤ e) (he1 : e ≤ 5 / 10000000) (hs : s ≤ 1.3) :
    Close (labInvFunc v) (cieCurveInv s) (δ + 5.1 * e + 2 / 10000000) := by
  have δ0 := PowNear.nonneg hL
  have e0 := (abs_nonneg _).trans he
  have he' := he
  rw [abs_le] at he
  obtain ⟨he2, he3⟩ := he
  norm_num at hs
  have h1 : v.val ≤ 1.4 := by
    have : ((v.val : ℚ) : ℝ) ≤ ((1.4 : ℚ) : ℝ) := by
      norm_num
      linarith
    exact_mod_cast this
  unfold cieCurveInv
  rcases labInvFunc_cases hL hf h0 h1 with ⟨vb, c⟩ | ⟨vb, c⟩ <;> by_cases hc : 0.20689303 < s <;> norm_num at vb
  · rw [if_pos hc]
    norm_num at hc
    obtain ⟨q1, q2⟩ := cube_near (u := s) (by norm_num; linarith) (by norm_num; linarith)
    refine (close_clamp_exact c (d := 5.1 * e + 1 / 10000000) ?_).mono (by linarith)
    rw [abs_le]; norm_num at q1 q2 ⊢; constructor <;> linarith
  · rw [if_neg hc]
    refine (close_clamp_exact c (d := 5.1 * e) ?_).mono (by linarith)
    rw [abs_le]; norm_num; constructor <;> linarith
  · rw [if_pos hc]
    norm_num at hc
    refine (close_clamp_exact c (d := 5.1 * e) ?_).mono (by linarith)
    rw [show (v.val : ℝ) ^ 3 - s ^ 3 = (v.val ^ 2 + v.val * s + s ^ 2) * (v.val - s) by ring, abs_mul]
    refine mul_le_mul ?_ he' (abs_nonneg _) (by norm_num)
    have a1 : (v.val : ℝ) ≤ 1.300001 := by norm_num; linarith
    have a2 : (0 : ℝ) ≤ v.val := by linarith
    have a3 : 0 ≤ s := by linarith
    norm_num at a1
    rw [abs_of_nonneg (by positivity)]
    norm_num; nlinarith
  · rw [if_neg hc]
    rw [_root_.not_lt] at hc
    norm_num at hc
    obtain ⟨q1, q2⟩ := cube_near (u := v.val) (by norm_num; linarith) (by norm_num; linarith)
    refine (close_clamp_exact c (d := 5.1 * e + 1 / 10000000) ?_).mono (by linarith)
    rw [abs_le]; norm_num at q1 q2 ⊢; constructor <;> linarith

/-- C112: Lab to XYZ in 32-bit numbers, for `powf` within `δ`: all channels are within 1.1δ + 4·10^-6 of the CIE
formula. -/
theorem C112_to_xyz (δ : ℝ) (hL : PowNear δ) (hδ : δ ≤ 1 / 1000000) (i : Illuminant) (o : Observer) (c : Col F32)
    (h : LabRange c) :
    CloseCol (1.1 * δ + 4 / 1000000) (to_xyz (.lab i o) c) (cieXyz (whitePoint i o) (exact c)) ∧
    (to_xyz (.lab i o) c).alpha = c.alpha := by
  have δ0 := PowNear.nonneg hL
  obtain ⟨w0, w1, w2, b0, b1, b2⟩ := white_near i o
  obtain ⟨f0, ⟨f1, r1⟩, ⟨f2, r2⟩, fa, hx, hz⟩ := h
  have real2 : ∀ {x : F32}, |x.val| ≤ 2 → |(x.val : ℝ)| ≤ 2 := fun {x} hx => by exact_mod_cast hx
  have hx' : (100 * (c.c0.val : ℝ) + 16) / 116 + 128 * c.c1.val / 500 ≤ 1.3 := by
    have : (((100 * c.c0.val + 16) / 116 + 128 * c.c1.val / 500 : ℚ) : ℝ) ≤ ((1.3 : ℚ) : ℝ) := by exact_mod_cast hx
    norm_num at this ⊢; exact this
  have hz' : (100 * (c.c0.val : ℝ) + 16) / 116 - 128 * c.c2.val / 200 ≤ 1.3 := by
    have : (((100 * c.c0.val + 16) / 116 - 128 * c.c2.val / 200 : ℚ) : ℝ) ≤ ((1.3 : ℚ) : ℝ) := by exact_mod_cast hz
    norm_num at this ⊢; exact this
  have n0 := NearF.unit f0
  have u0 : (0 : ℝ) ≤ c.c0.val := by exact_mod_cast f0.2.1
  have u1 : (c.c0.val : ℝ) ≤ 1 := by exact_mod_cast f0.2.2
  have s1 := real2 r1
  have s2 := real2 r2
  have n1 : NearF c.c1 c.c1.val 0 2 := NearF.of_fin f1 s1
  have n2 : NearF c.c2 c.c2.val 0 2 := NearF.of_fin f2 s2
  rw [abs_le] at s1 s2
  obtain ⟨s1a, s1b⟩ := s1
  obtain ⟨s2a, s2b⟩ := s2
  have l116 : NearF (lit 116 : F32) 116 0 116 := by exact_mod_cast lit_int 116 (by norm_num)
  have l16 : NearF (lit 16 : F32) 16 0 16 := by exact_mod_cast lit_int 16 (by norm_num)
  have l100 : NearF (lit 100 : F32) 100 0 100 := by exact_mod_cast lit_int 100 (by norm_num)
  have l128 : NearF (lit 128 : F32) 128 0 128 := by exact_mod_cast lit_int 128 (by norm_num)
  have l500 : NearF (lit 500 : F32) 500 0 500 := by exact_mod_cast lit_int 500 (by norm_num)
  have l200 : NearF (lit 200 : F32) 200 0 200 := by exact_mod_cast lit_int 200 (by norm_num)
  have ry := (((n0.mul 7 (by norm_num) l100 (by norm_num)).add' 7 (by norm_num) l16 (C := 116)
      (by rw [abs_le]; constructor <;> linarith) (by norm_num)).div 1 (by norm_num) (m := 116) l116
      (by norm_num) (by norm_num) (by norm_num)).mono (d := 15 / 100000000) (B := 1) (by norm_num) (by norm_num)
  have ax := ((n1.mul 8 (by norm_num) l128 (by norm_num)).div 0 (by norm_num) (m := 500) l500
      (by norm_num) (by norm_num) (by norm_num)).mono (d := 8 / 100000000) (B := 0.52) (by norm_num) (by norm_num)
  have bz := ((n2.mul 8 (by norm_num) l128 (by norm_num)).div 1 (by norm_num) (m := 200) l200
      (by norm_num) (by norm_num) (by norm_num)).mono (d := 15 / 100000000) (B := 1.28) (by norm_num) (by norm_num)
  norm_num at hx' hz'
  have rx := (ax.add 1 (by norm_num) ry (by norm_num)).mono (d := 45 / 100000000) (B := 2) (by norm_num) (by norm_num)
  have rz := (ry.sub' 1 (by norm_num) bz (C := 1.5) (by rw [abs_le]; norm_num; constructor <;> linarith)
    (by norm_num)).mono (d := 45 / 100000000) (B := 2) (by norm_num) (by norm_num)
  have ry := ry.mono (d := 45 / 100000000) (B := 1) (by norm_num) (by norm_num)
  have key : ∀ {v w : F32} {s r wp : ℝ} {W B : ℝ}, NearF v s (45 / 100000000) B → s = r → -1.5 ≤ r → r ≤ 1.3 →
      NearF w wp (1 / 16777216) W → W ≤ 1.1 → Close (labInvFunc v *. w) (wp * cieCurveInv r) (1.1 * δ + 4 / 1000000) := by
    intro v w s r wp W B hv hr hr0 hr1 hw hW
    subst hr
    have ve := hv.close.err
    rw [abs_le] at ve
    have v0 : -2 ≤ v.val := by
      have : ((-2 : ℚ) : ℝ) ≤ ((v.val : ℚ) : ℝ) := by norm_num at hr0 ⊢; linarith
      exact_mod_cast this
    have k := labInvFunc_near hL hv.close.fin v0 hv.close.err (by norm_num) hr1
    have kb : |cieCurveInv s| ≤ 2.2 := by
      unfold cieCurveInv
      by_cases hc : 0.20689303 < s
      · rw [if_pos hc, abs_of_nonneg (by positivity)]
        exact (pow_le_pow_left₀ (by norm_num at hc; linarith) hr1 3).trans (by norm_num)
      · rw [if_neg hc, abs_le]
        norm_num at hc hr0 ⊢
        constructor <;> linarith
    have n : NearF (labInvFunc v) (cieCurveInv s) (δ + 26 / 10000000) 2.2 := ⟨k.mono (by norm_num; linarith), kb⟩
    have W0 := hw.b_nonneg
    have m := n.mul 2 (by norm_num) hw (by norm_num at hW ⊢; nlinarith)
    refine m.is (mul_comm _ _) ?_
    norm_num at hW ⊢; nlinarith
  refine ⟨⟨?_, ?_, ?_, close_self fa (by positivity)⟩, rfl⟩
  · exact key (r := (100 * (c.c0.val : ℝ) + 16) / 116 + 128 * c.c1.val / 500) rx (by ring) (by norm_num; linarith) (by norm_num; linarith) w0 (by norm_num)
  · exact key (r := (100 * (c.c0.val : ℝ) + 16) / 116) ry (by ring) (by norm_num; linarith) (by norm_num; linarith) w1 (by norm_num)
  · exact key (r := (100 * (c.c0.val : ℝ) + 16) / 116 - 128 * c.c2.val / 200) rz (by ring) (by norm_num; linarith) (by norm_num; linarith) w2 (by norm_num)

variable [Junk]

/-- A row of the matrix back to RGB, for arguments that are a few units off. -/
theorem lab_back_row {x y z : F32} {p q r e0 e1 e2 : ℝ} (hx : NearF x p e0 0.950456) (hy : NearF y q e1 1)
    (hz : NearF z r e2 1.088754) (he0 : e0 ≤ 1 / 10000) (he1 : e1 ≤ 1 / 10000) (he2 : e2 ≤ 1 / 10000)
    (a b d : ℚ) (ha : |(a : ℝ)| ≤ 3.2405) (hb : |(b : ℝ)| ≤ 1.876) (hd : |(d : ℝ)| ≤ 1.0574) :
    Close (clamp01 (x *. lit a +. y *. lit b +. z *. lit d))
      (clamp01 (p *. lit a +. q *. lit b +. r *. lit d))
      (|(a : ℝ)| * e0 + |(b : ℝ)| * e1 + |(d : ℝ)| * e2 + 11 / 10000000) := by
  have z0 := hx.e_nonneg
  have z1 := hy.e_nonneg
  have z2 := hz.e_nonneg
  have na := NearF.lit 2 a (B := |(a : ℝ)|) (by norm_num) le_rfl (ha.trans (by norm_num))
  have nb := NearF.lit 1 b (B := |(b : ℝ)|) (by norm_num) le_rfl (hb.trans (by norm_num))
  have nd := NearF.lit 1 d (B := |(d : ℝ)|) (by norm_num) le_rfl (hd.trans (by norm_num))
  norm_num at ha hb hd
  have a0 := abs_nonneg (a : ℝ)
  have b0 := abs_nonneg (b : ℝ)
  have d0 := abs_nonneg (d : ℝ)
  have t0 : |(a : ℝ)| * e0 ≤ 3.2405 * (1 / 10000) := mul_le_mul (by norm_num; linarith) he0 z0 (by norm_num)
  have t1 : |(b : ℝ)| * e1 ≤ 1.876 * (1 / 10000) := mul_le_mul (by norm_num; linarith) he1 z1 (by norm_num)
  have t2 : |(d : ℝ)| * e2 ≤ 1.0574 * (1 / 10000) := mul_le_mul (by norm_num; linarith) he2 z2 (by norm_num)
  norm_num at t0 t1 t2
  have m1 := hx.mul 2 (by norm_num) na (by norm_num; linarith)
  have m2 := hy.mul 1 (by norm_num) nb (by norm_num; linarith)
  have m3 := hz.mul 1 (by norm_num) nd (by norm_num; linarith)
  have s := ((m1.add 3 (by norm_num) m2 (by norm_num; linarith)).add 3 (by norm_num) m3 (by norm_num; linarith))
  refine (near_clamp s).mono ?_
  norm_num; linarith

/-- XYZ values near those of an RGB colour, taken back to RGB. -/
theorem rgb_of_xyz {c d : Col F32} (h : UnitCol c) {e0 e1 e2 : ℝ} (h0 : Close d.c0 (to_xyz .rgb c).c0.val e0)
    (h1 : Close d.c1 (to_xyz .rgb c).c1.val e1) (h2 : Close d.c2 (to_xyz .rgb c).c2.val e2)
    (ha : d.alpha = c.alpha) (he0 : e0 ≤ 9 / 100000) (he1 : e1 ≤ 9 / 100000) (he2 : e2 ≤ 9 / 100000) :
    CloseCol (3.2405 * e0 + 1.876 * e1 + 1.0574 * e2 + 1 / 200000) (to_rgb .xyz d) (exact c) ∧
    Close (to_rgb .xyz d).c0 c.c0.val (3.2405 * e0 + 1.5372 * e1 + 0.4986 * e2 + 1 / 200000) ∧
    Close (to_rgb .xyz d).c1 c.c1.val (0.9693 * e0 + 1.876 * e1 + 0.0416 * e2 + 1 / 200000) ∧
    Close (to_rgb .xyz d).c2 c.c2.val (0.0557 * e0 + 0.2041 * e1 + 1.0574 * e2 + 1 / 200000) := by
  have z0 := (abs_nonneg _).trans h0.err
  have z1 := (abs_nonneg _).trans h1.err
  have z2 := (abs_nonneg _).trans h2.err
  obtain ⟨n0, n1, n2, -⟩ := rgb_xyz_near c h
  have m0 : NearF d.c0 _ _ 0.950456 := ⟨close_clamp_exact h0 n0.close.err, n0.le⟩
  have m1 : NearF d.c1 _ _ 1 := ⟨close_clamp_exact h1 n1.close.err, n1.le⟩
  have m2 : NearF d.c2 _ _ 1.088754 := ⟨close_clamp_exact h2 n2.close.err, n2.le⟩
  obtain ⟨_, e0', e1', e2', e3'⟩ := C31_xyz_round_trip (exact c) (exact_unit h)
  have s0 := lab_back_row m0 m1 m2 (by linarith) (by linarith) (by linarith) 3.240479 (-1.53715) (-0.498535)
    (by norm_num [abs_le]) (by norm_num [abs_le]) (by norm_num [abs_le])
  have s1 := lab_back_row m0 m1 m2 (by linarith) (by linarith) (by linarith) (-0.969256) 1.875991 0.041556
    (by norm_num [abs_le]) (by norm_num [abs_le]) (by norm_num [abs_le])
  have s2 := lab_back_row m0 m1 m2 (by linarith) (by linarith) (by linarith) 0.055648 (-0.204043) 1.057311
    (by norm_num [abs_le]) (by norm_num [abs_le]) (by norm_num [abs_le])
  have r0 : Close (to_rgb .xyz d).c0 c.c0.val (3.2405 * e0 + 1.5372 * e1 + 0.4986 * e2 + 1 / 200000) := by
    refine (close_clamp_exact (s0.congr (r := (to_rgb .xyz (to_xyz .rgb (exact c))).c0) ?_) e0').mono ?_
    · simp only [to_xyz, to_rgb, Rgb.to_xyz, Xyz.to_rgb, apply_matrix, apply_matrix_clamped, exact]
      ex_simp
    · norm_num [abs_of_pos, abs_of_neg]; linarith
  have r1 : Close (to_rgb .xyz d).c1 c.c1.val (0.9693 * e0 + 1.876 * e1 + 0.0416 * e2 + 1 / 200000) := by
    refine (close_clamp_exact (s1.congr (r := (to_rgb .xyz (to_xyz .rgb (exact c))).c1) ?_) e1').mono ?_
    · simp only [to_xyz, to_rgb, Rgb.to_xyz, Xyz.to_rgb, apply_matrix, apply_matrix_clamped, exact]
      ex_simp
    · norm_num [abs_of_pos, abs_of_neg]; linarith
  have r2 : Close (to_rgb .xyz d).c2 c.c2.val (0.0557 * e0 + 0.2041 * e1 + 1.0574 * e2 + 1 / 200000) := by
    refine (close_clamp_exact (s2.congr (r := (to_rgb .xyz (to_xyz .rgb (exact c))).c2) ?_) e2').mono ?_
    · simp only [to_xyz, to_rgb, Rgb.to_xyz, Xyz.to_rgb, apply_matrix, apply_matrix_clamped, exact]
      ex_simp
    · norm_num [abs_of_pos, abs_of_neg]; linarith
  refine ⟨⟨r0.mono ?_, r1.mono ?_, r2.mono ?_, ?_⟩, r0, r1, r2⟩
  · norm_num; linarith
  · norm_num; linarith
  · norm_num; linarith
  · show Close d.alpha c.alpha.val _
    rw [ha]; exact close_self h.alpha.1 (by norm_num; linarith)

omit [Junk] in
/-- How far the XYZ values of RGB colours reach. -/
theorem rgb_xyz_top (i : Illuminant) (o : Observer) (c : Col F32) (h : UnitCol c) :
    ((to_xyz .rgb c).c0.val : ℝ) + 1 / 1000000 ≤ 1.001 ^ 3 * (whitePoint i o).1 - 1 / 100000 ∧
    ((to_xyz .rgb c).c1.val : ℝ) + 1 / 1000000 ≤ 1.001 ^ 3 * (whitePoint i o).2.1 - 1 / 100000 ∧
    ((to_xyz .rgb c).c2.val : ℝ) + 1 / 1000000 ≤ 1.102 ^ 3 * (whitePoint i o).2.2 - 1 / 100000 := by
  obtain ⟨-, -, -, b0, b1, b2⟩ := white_near i o
  obtain ⟨n0, n1, n2, -⟩ := rgb_xyz_near c h
  have top : ∀ {x : F32} {q e B : ℝ}, NearF x q e B → (x.val : ℝ) ≤ B + e := fun {x q e B} n => by
    have a := n.close.err
    have b := n.le
    rw [abs_le] at a b
    linarith
  have r0 := top n0
  have r1 := top n1
  have r2 := top n2
  refine ⟨?_, ?_, ?_⟩
  · norm_num at r0 b0 ⊢; linarith
  · rw [b1]; norm_num at r1 ⊢; linarith
  · norm_num at r2 b2 ⊢; linarith

/-- C112: RGB to Lab and back in 32-bit numbers is within 2.8·10^-5 of the colour and equal (`==`) to it, with
the same alpha, for every white point, when `powf` is within 2^-22. -/
theorem C112_lab_round_trip (hL : PowNear (1 / 4194304)) (i : Illuminant) (o : Observer) (c : Col F32)
    (h : UnitCol c) :
    let d := to_rgb (.lab i o) (to_lab i o .rgb c)
    CloseCol (28 / 1000000) d (exact c) ∧ d.alpha = c.alpha ∧ Col.eq d c = true := by
  intro d
  have hδ : (1 / 4194304 : ℝ) ≤ 1 / 1000000 := by norm_num
  obtain ⟨-, -, -, hr⟩ := rgb_xyz_near c h
  obtain ⟨k0, k1, k2⟩ := rgb_xyz_top i o c h
  obtain ⟨-, ⟨fA, -⟩, ⟨fB, -⟩⟩ := lab_fin hL hδ i o _ hr
  obtain ⟨d0, d1, d2, -⟩ := xyz_trip (U0 := 1.001) (U1 := 1.001) (U2 := 1.102) (ε := 0) hL hδ i o _ hr (by norm_num)
    (by norm_num) (by norm_num) (by norm_num) (by norm_num) (by norm_num) (by linarith) (by linarith) (by linarith)
    _ _ c.alpha (by norm_num) le_rfl (close_self fA le_rfl) (close_self fB le_rfl)
  have c0 := d0.mono (d := 385 / 100000000) (by norm_num)
  have c1 := d1.mono (d := 385 / 100000000) (by norm_num)
  have c2 := d2.mono (d := 5 / 1000000) (by norm_num)
  obtain ⟨-, r0, r1, r2⟩ := rgb_of_xyz h c0 c1 c2 rfl (by norm_num) (by norm_num) (by norm_num)
  have cc : CloseCol (28 / 1000000) d (exact c) :=
    ⟨r0.mono (by norm_num), r1.mono (by norm_num), r2.mono (by norm_num), close_self h.alpha.1 (by norm_num)⟩
  refine ⟨cc, rfl, ?_⟩
  refine eq_of_close cc ⟨h.c0.1, h.c1.1, h.c2.1, h.alpha.1⟩ (b := 0) ?_ ?_ ?_ ?_ (by norm_num) <;> simp [exact]

/-- C112: RGB to Lab in 32-bit numbers is within 8δ + 5·10^-5 of the exact conversion. -/
theorem C112_rgb_to_lab (δ : ℝ) (hL : PowNear δ) (hδ : δ ≤ 1 / 1000000) (i : Illuminant) (o : Observer)
    (c : Col F32) (h : UnitCol c) :
    CloseCol (8 * δ + 5 / 100000) (to_lab i o .rgb c) (to_lab i o .rgb (exact c)) ∧
    (to_lab i o .rgb c).alpha = c.alpha := by
  have δ0 := PowNear.nonneg hL
  obtain ⟨w0, w1, w2, b0, b1, b2⟩ := white_near i o
  obtain ⟨n0, n1, n2, -⟩ := rgb_xyz_near c h
  have ex : to_lab i o .rgb (exact c) = cieLab (whitePoint i o) ⟨(c.c0.val : ℝ) * 0.412453 +
      (c.c1.val : ℝ) * 0.357580 + (c.c2.val : ℝ) * 0.180423, (c.c0.val : ℝ) * 0.212671 + (c.c1.val : ℝ) * 0.715160 +
      (c.c2.val : ℝ) * 0.072169, (c.c0.val : ℝ) * 0.019334 + (c.c1.val : ℝ) * 0.119193 + (c.c2.val : ℝ) * 0.950227,
      c.alpha.val⟩ := by
    rw [(C72_lab_by_xyz i o .rgb (exact c)).1]
    congr 1
  obtain ⟨⟨g0, x0, x1⟩, ⟨g1, y0, y1⟩, ⟨g2, z0, z1⟩, ga, -, -⟩ := h
  have x0 : (0 : ℝ) ≤ c.c0.val := by exact_mod_cast x0
  have y0 : (0 : ℝ) ≤ c.c1.val := by exact_mod_cast y0
  have z0 : (0 : ℝ) ≤ c.c2.val := by exact_mod_cast z0
  have ch : ∀ {x w : F32} {q wp W U B : ℝ}, NearF x q (27 / 100000000) B → 0 ≤ q → B ≤ 1.09 →
      NearF w wp (1 / 16777216) W → 0.8142 ≤ wp → W ≤ 1.1 → 1 ≤ U → U ≤ 1.115 → B + 2 / 1000000 ≤ U ^ 3 * wp →
      Close (labFunc (x /. w)) (cieCurve (q / wp)) (δ + 48 / 10000000) ∧
      0 ≤ cieCurve (q / wp) ∧ cieCurve (q / wp) ≤ U := by
    intro x w q wp W U B hx hq0 hB hw hw0 hW hU1 hU hxU
    have xe := hx.close.err
    have qB := hx.le
    rw [abs_of_nonneg hq0] at qB
    rw [abs_le] at xe
    have wpp : (0 : ℝ) < wp := by norm_num at hw0; linarith
    obtain ⟨tf, t0, t1, tc⟩ := ratio_near hx.close.fin (by norm_num; linarith) (by norm_num at hB ⊢; linarith) hw hw0 hW (U := U) (by linarith)
    have t14 : (x /. w).val ≤ 1.4 := by
      have : (((x /. w).val : ℚ) : ℝ) ≤ ((1.4 : ℚ) : ℝ) := by
        have := (t1.trans (pow_le_pow_left₀ (by linarith) hU 3)).trans (show (1.115 : ℝ) ^ 3 ≤ 1.4 by norm_num)
        norm_num at this ⊢; exact this
      exact_mod_cast this
    have d : |(x.val : ℝ) / wp - q / wp| ≤ 34 / 100000000 := by
      rw [← sub_div, abs_div, abs_of_pos wpp, div_le_iff₀ wpp]
      refine hx.close.err.trans ?_
      norm_num at hw0 ⊢; linarith
    have tc' := close_clamp_exact tc d
    refine ⟨(labFunc_near hL tf t0 t14 tc'.err (by norm_num)).mono (by norm_num; linarith),
      cieCurve_range (le_trans (by norm_num) (div_nonneg hq0 wpp.le)) hU1 ?_⟩
    rw [div_le_iff₀ wpp]; linarith
  rw [ex]
  obtain ⟨c0, d0⟩ := ch n0 (by positivity) (by norm_num) w0 (le_trans (by norm_num) b0) (by norm_num) (U := 1.106)
    (by norm_num) (by norm_num) (by norm_num at b0 ⊢; linarith)
  obtain ⟨c1, d1⟩ := ch n1 (by positivity) (by norm_num) w1 (by rw [b1]; norm_num) (by norm_num) (U := 1.04)
    (by norm_num) (by norm_num) (by rw [b1]; norm_num)
  obtain ⟨c2, d2⟩ := ch n2 (by positivity) (by norm_num) w2 b2 (by norm_num) (U := 1.106) (by norm_num) (by norm_num)
    (by norm_num at b2 ⊢; linarith)
  obtain ⟨l0, l1, l2⟩ := lab_close c0 c1 c2 ⟨d0.1, d0.2.trans (by norm_num)⟩ ⟨d1.1, d1.2.trans (by norm_num)⟩
    ⟨d2.1, d2.2.trans (by norm_num)⟩ (by norm_num at hδ ⊢; linarith)
  exact ⟨⟨l0.mono (by linarith), l1.mono (by linarith), l2.mono (by linarith), close_self ga (by positivity)⟩, rfl⟩

end

/-! ## The hypotheses can be met -/

/-- A binary32 number next to a real number. -/
noncomputable def nearestF (r : ℝ) : F32 :=
  FP.ofRat b32 false (Classical.choose (exists_rat_near r (show (0 : ℝ) < 1 / 33554432 by norm_num)))

theorem nearestF_close {r : ℝ} (h : |r| ≤ 3.9) : Close (nearestF r) r (1 / 4194304) := by
  have e := Classical.choose_spec (exists_rat_near r (show (0 : ℝ) < 1 / 33554432 by norm_num))
  rw [abs_sub_comm] at e
  exact (NearF.round (b := false) (B := 3.9) 2 (by norm_num) e.le h (by norm_num)).close.mono (by norm_num)

/-- Library functions that pick a binary32 number next to the exact value. -/
@[instance_reducible] noncomputable def nearestLab : Libm b32 :=
  { Libm.trivial b32 with
    powf := fun x y => nearestF ((x.val : ℝ) ^ (y.val : ℝ))
    cos := fun x => nearestF (Real.cos x.val)
    sin := fun x => nearestF (Real.sin x.val)
    atan2 := fun y x => nearestF (Complex.arg ⟨x.val, y.val⟩)
    sqrt := fun x => FP.ofRat b32 false (Classical.choose (exists_rat_near (Real.sqrt x.val)
      (show (0 : ℝ) < |Real.sqrt x.val| / 10 ^ 10 + 1 / 10 ^ 31 by positivity))) }

theorem nearestLab_pow : letI := nearestLab; PowNear (1 / 4194304) := by
  let := nearestLab
  intro x y hx hy h0 h1 y0 y1
  have x0 : (0 : ℝ) ≤ x.val := by exact_mod_cast h0
  have x1 : (x.val : ℝ) ≤ 1.4 := by
    have := (Rat.cast_le (K := ℝ)).2 h1
    push_cast at this
    exact this
  have y0 : (0 : ℝ) ≤ y.val := by exact_mod_cast y0.le
  have y1 : (y.val : ℝ) ≤ 3 := by exact_mod_cast y1
  refine nearestF_close ?_
  rw [abs_of_nonneg (Real.rpow_nonneg x0 _)]
  calc (x.val : ℝ) ^ (y.val : ℝ) ≤ (1.4 : ℝ) ^ (y.val : ℝ) := Real.rpow_le_rpow x0 x1 y0
    _ ≤ (1.4 : ℝ) ^ (3 : ℝ) := Real.rpow_le_rpow_of_exponent_le (by norm_num) y1
    _ ≤ 3.9 := by
      rw [show (3 : ℝ) = ((3 : ℕ) : ℝ) by norm_num, Real.rpow_natCast]; norm_num

/-- A colour for the examples. -/
def labSample : Col F32 :=
  ⟨FP.ofRat b32 false (1 / 3), FP.ofRat b32 false 1, FP.ofRat b32 false 0.001, FP.ofRat b32 false (1 / 2)⟩

theorem labSample_unit : UnitCol labSample := ⟨by decide +kernel, by decide +kernel, by decide +kernel, by decide +kernel⟩

/-- Non-vacuity: with these functions the round trip through Lab applies to the colour. -/
example [Junk] : letI := nearestLab
    Col.eq (to_rgb (.lab .D50 .O2) (to_lab .D50 .O2 .rgb labSample)) labSample = true := by
  let := nearestLab
  exact (C112_lab_round_trip nearestLab_pow _ _ _ labSample_unit).2.2

/-- Non-vacuity of the ranges. -/
example : letI := nearestLab; XyzRange (to_xyz .rgb labSample) := by
  let := nearestLab
  exact (rgb_xyz_near _ labSample_unit).2.2.2

example : LabRange (⟨FP.ofRat b32 false (1 / 2), FP.ofRat b32 false (-1), FP.ofRat b32 false 0.5,
    FP.ofRat b32 false (1 / 2)⟩ : Col F32) := by
  constructor <;> decide +kernel

end D10
