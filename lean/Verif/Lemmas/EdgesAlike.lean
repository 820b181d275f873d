import Verif.Lemmas.Chain

/-!
# Sobel edges of the same picture in 32-bit and in exact numbers (C127)
-/

namespace D10
open Spec
open Scalar (lit)

/-- The length of a vector moves by no more than its two coordinates together. -/
theorem length_move (a b a' b' : ℝ) :
    |Real.sqrt (a * a + b * b) - Real.sqrt (a' * a' + b' * b')| ≤ |a - a'| + |b - b'| := by
  have half : ∀ a b a' b' : ℝ, Real.sqrt (a * a + b * b) ≤ Real.sqrt (a' * a' + b' * b') + (|a - a'| + |b - b'|) := by
    intro a b a' b'
    set r := Real.sqrt (a' * a' + b' * b') with hr
    have r0 : 0 ≤ r := Real.sqrt_nonneg _
    have rr : r * r = a' * a' + b' * b' := Real.mul_self_sqrt (by nlinarith [mul_self_nonneg a', mul_self_nonneg b'])
    have d0 := abs_nonneg (a - a')
    have e0 := abs_nonneg (b - b')
    refine Real.sqrt_le_iff.2 ⟨by positivity, ?_⟩
    have ra : |a'| ≤ r := Real.abs_le_sqrt (by nlinarith)
    have rb : |b'| ≤ r := Real.abs_le_sqrt (by nlinarith)
    have da : |a - a'| * |a - a'| = (a - a') * (a - a') := abs_mul_abs_self _
    have db : |b - b'| * |b - b'| = (b - b') * (b - b') := abs_mul_abs_self _
    have pa : a' * (a - a') ≤ r * |a - a'| := (le_abs_self _).trans (by
      rw [abs_mul]; exact mul_le_mul_of_nonneg_right ra d0)
    have pb : b' * (b - b') ≤ r * |b - b'| := (le_abs_self _).trans (by
      rw [abs_mul]; exact mul_le_mul_of_nonneg_right rb e0)
    nlinarith [mul_nonneg d0 e0]
  rw [abs_le]
  have h1 := half a b a' b'
  have h2 := half a' b' a b
  rw [abs_sub_comm a' a, abs_sub_comm b' b] at h2
  constructor <;> linarith

/-- Differences across a neighbourhood of values at most `ε` off are at most `8 ε` off. -/
theorem across_move (u v : Nat → Nat → ℝ) {ε : ℝ} (h : ∀ i j, |u i j - v i j| ≤ ε) :
    |(∑ j ∈ Finset.range 3, ∑ i ∈ Finset.range 3, ((1 - (i : ℝ)) * if j = 1 then 2 else 1) * u i j) -
      ∑ j ∈ Finset.range 3, ∑ i ∈ Finset.range 3, ((1 - (i : ℝ)) * if j = 1 then 2 else 1) * v i j| ≤ 8 * ε ∧
    |(∑ j ∈ Finset.range 3, ∑ i ∈ Finset.range 3, ((1 - (j : ℝ)) * if i = 1 then 2 else 1) * u i j) -
      ∑ j ∈ Finset.range 3, ∑ i ∈ Finset.range 3, ((1 - (j : ℝ)) * if i = 1 then 2 else 1) * v i j| ≤ 8 * ε := by
  simp only [Finset.sum_range_succ, Finset.sum_range_zero]
  norm_num
  have := abs_le.1 (h 0 0); have := abs_le.1 (h 0 1); have := abs_le.1 (h 0 2); have := abs_le.1 (h 1 0)
  have := abs_le.1 (h 1 2); have := abs_le.1 (h 2 0); have := abs_le.1 (h 2 1); have := abs_le.1 (h 2 2)
  rw [abs_le, abs_le]
  refine ⟨⟨?_, ?_⟩, ?_, ?_⟩ <;> linarith

/-- 1 is a channel. -/
theorem lit_one_unit [Libm b32] : (lit 1 : F32).fin = true ∧ 0 ≤ (lit 1 : F32).val ∧ (lit 1 : F32).val ≤ 1 := by
  have l : (lit 1 : F32) = FP.ofRat b32 false 1 := rfl
  rw [l]
  exact ⟨by decide +kernel, by decide +kernel, by decide +kernel⟩

variable [Libm b32] [Junk]

/-- Sobel edges. -/
theorem sobel_alike (hs : SqrtWithin) {b : PixelBuffer (Col F32)} {e : PixelBuffer (Col ℝ)} {w h px ex} {ε : ℝ}
    (s : Shows b w h px) (t : Shows e w h ex) (ha : ∀ x y, x < w → y < h → AlikeAt ε (px x y) (ex x y)) :
    ∃ b' e' px' ex', edge_detection b .Sobel = .ok b' ∧ Shows b' w h px' ∧ edge_detection e .Sobel = .ok e' ∧
      Shows e' w h ex' ∧ ∀ x y, x < w → y < h → AlikeAt (16 * ε + 1 / 50000) (px' x y) (ex' x y) := by
  obtain ⟨b1, px', e1, s1, c1⟩ := C95_sobel hs s fun x y hx hy => (ha x y hx hy).1
  obtain ⟨b2, e2, s2⟩ := C47_sobel s
  rw [e1] at e2; cases e2
  obtain ⟨e', e3, s3⟩ := C47_sobel t
  refine ⟨b1, e', px', _, e1, s1, e3, s3, fun x y hx hy => ?_⟩
  have c := c1 x y hx hy
  have hw : 0 < w := by omega
  have hh : 0 < h := by omega
  have ε0 : 0 ≤ ε := (abs_nonneg _).trans (ha x y hx hy).2.2.c0.err
  refine ⟨?_, ⟨clamp01_unit _, clamp01_unit _, clamp01_unit _, ?_⟩, c.via (s := 16 * ε) ?_ le_rfl⟩
  · rw [rows_inj (s1.pixels.symm.trans s2.pixels) hx hy] at c ⊢
    exact ⟨clamped_unit c.c0.fin, clamped_unit c.c1.fin, clamped_unit c.c2.fin, lit_one_unit⟩
  · rw [Exact.lit]; norm_num
  · have one : ∀ (cF : Col F32 → F32) (cR : Col ℝ → ℝ), (∀ x y, x < w → y < h → |((cF (px x y)).val : ℝ) - cR (ex x y)| ≤ ε) →
        (cR (conv w h ex 3 3 sobelX x y) = total 3 3 fun i j => sobelX i j *. cR (ex (nearest w (x + i - (3 / 2 : Nat))) (nearest h (y + j - (3 / 2 : Nat))))) →
        (cR (conv w h ex 3 3 sobelY x y) = total 3 3 fun i j => sobelY i j *. cR (ex (nearest w (x + i - (3 / 2 : Nat))) (nearest h (y + j - (3 / 2 : Nat))))) →
        |max 0 (min 1 (Real.sqrt (acrossX w h px x y cF * acrossX w h px x y cF + acrossY w h px x y cF * acrossY w h px x y cF))) -
          clamp01 (Scalar.sqrt (cR (conv w h ex 3 3 sobelX x y) *. cR (conv w h ex 3 3 sobelX x y)
          +. cR (conv w h ex 3 3 sobelY x y) *. cR (conv w h ex 3 3 sobelY x y)))| ≤ 16 * ε := by
      intro cF cR hp h1 h2
      rw [h1, h2, Exact.clamp01, Exact.total, Exact.total]
      ex_simp
      rw [Exact.sqrt (add_nonneg (mul_self_nonneg _) (mul_self_nonneg _))]
      refine (clamp_sub _ _).trans ((length_move _ _ _ _).trans ?_)
      have m := across_move
        (fun i j => ((cF (px (nearest w (x + i - (3 / 2 : Nat))) (nearest h (y + j - (3 / 2 : Nat))))).val : ℝ))
        (fun i j => cR (ex (nearest w (x + i - (3 / 2 : Nat))) (nearest h (y + j - (3 / 2 : Nat)))))
        (fun i j => hp _ _ (nearest_inside hw _) (nearest_inside hh _))
      have tx : ∀ i j, (sobelX i j : ℝ) = (1 - (i : ℝ)) * if j = 1 then 2 else 1 := fun i j => by
        unfold sobelX; rw [Exact.lit]; split <;> push_cast <;> rfl
      have ty : ∀ i j, (sobelY i j : ℝ) = (1 - (j : ℝ)) * if i = 1 then 2 else 1 := fun i j => by
        unfold sobelY; rw [Exact.lit]; split <;> push_cast <;> rfl
      simp only [tx, ty]
      have := m.1
      have := m.2
      unfold acrossX acrossY exactSum
      linarith
    refine ⟨one Col.c0 Col.c0 (fun x y hx hy => (ha x y hx hy).2.2.c0.err) rfl rfl,
      one Col.c1 Col.c1 (fun x y hx hy => (ha x y hx hy).2.2.c1.err) rfl rfl,
      one Col.c2 Col.c2 (fun x y hx hy => (ha x y hx hy).2.2.c2.err) rfl rfl, ?_⟩
    rw [Exact.lit]
    norm_num
    exact ε0

omit [Libm b32] [Junk] in
/-- The neighbours minus eight times the pixel: values at most `ε` off give `16 ε`. -/
theorem laplace_move (u v : Nat → Nat → ℝ) {ε : ℝ} (h : ∀ i j, |u i j - v i j| ≤ ε) :
    |(∑ j ∈ Finset.range 3, ∑ i ∈ Finset.range 3, (if i = 1 ∧ j = 1 then -8 else 1) * u i j) -
      ∑ j ∈ Finset.range 3, ∑ i ∈ Finset.range 3, (if i = 1 ∧ j = 1 then -8 else 1) * v i j| ≤ 16 * ε := by
  simp only [Finset.sum_range_succ, Finset.sum_range_zero]
  norm_num
  have := abs_le.1 (h 0 0); have := abs_le.1 (h 0 1); have := abs_le.1 (h 0 2); have := abs_le.1 (h 1 0)
  have := abs_le.1 (h 1 1); have := abs_le.1 (h 1 2); have := abs_le.1 (h 2 0); have := abs_le.1 (h 2 1)
  have := abs_le.1 (h 2 2)
  rw [abs_le]
  constructor <;> linarith

/-- Laplace edges. They are not clamped, so they leave the range. -/
theorem laplace_alike {b : PixelBuffer (Col F32)} {e : PixelBuffer (Col ℝ)} {w h px ex} {ε : ℝ}
    (s : Shows b w h px) (t : Shows e w h ex) (ha : ∀ x y, x < w → y < h → AlikeAt ε (px x y) (ex x y)) :
    ∃ b' e' px' ex', edge_detection b .Laplace = .ok b' ∧ Shows b' w h px' ∧ edge_detection e .Laplace = .ok e' ∧
      Shows e' w h ex' ∧ ∀ x y, x < w → y < h → CloseCol (16 * ε + 432 / 33554432) (px' x y) (ex' x y) := by
  obtain ⟨b1, px', e1, s1, c1⟩ := C95_laplace s fun x y hx hy => (ha x y hx hy).1
  obtain ⟨e', e3, s3⟩ := C47_laplace t
  refine ⟨b1, e', px', _, e1, s1, e3, s3, fun x y hx hy => ?_⟩
  have hw : 0 < w := by omega
  have hh : 0 < h := by omega
  have ε0 : 0 ≤ ε := (abs_nonneg _).trans (ha x y hx hy).2.2.c0.err
  refine (c1 x y hx hy).via (s := 16 * ε) ?_ le_rfl
  have one : ∀ (cF : Col F32 → F32) (cR : Col ℝ → ℝ), (∀ x y, x < w → y < h → |((cF (px x y)).val : ℝ) - cR (ex x y)| ≤ ε) →
      |exactSum w h px 3 3 (fun i j => if i = 1 ∧ j = 1 then -8 else 1) x y cF -
        total 3 3 fun i j => Spec.laplace i j *. cR (ex (nearest w (x + i - (3 / 2 : Nat))) (nearest h (y + j - (3 / 2 : Nat))))|
        ≤ 16 * ε := by
    intro cF cR hp
    rw [Exact.total]
    ex_simp
    have tl : ∀ i j, (Spec.laplace i j : ℝ) = if i = 1 ∧ j = 1 then -8 else 1 := fun i j => by
      unfold Spec.laplace; rw [Exact.lit]; split <;> push_cast <;> rfl
    simp only [tl]
    exact laplace_move
      (fun i j => ((cF (px (nearest w (x + i - (3 / 2 : Nat))) (nearest h (y + j - (3 / 2 : Nat))))).val : ℝ))
      (fun i j => cR (ex (nearest w (x + i - (3 / 2 : Nat))) (nearest h (y + j - (3 / 2 : Nat)))))
      (fun i j => hp _ _ (nearest_inside hw _) (nearest_inside hh _))
  refine ⟨one Col.c0 Col.c0 (fun x y hx hy => (ha x y hx hy).2.2.c0.err),
    one Col.c1 Col.c1 (fun x y hx hy => (ha x y hx hy).2.2.c1.err),
    one Col.c2 Col.c2 (fun x y hx hy => (ha x y hx hy).2.2.c2.err), ?_⟩
  rw [Exact.lit]
  norm_num
  exact ε0

end D10
