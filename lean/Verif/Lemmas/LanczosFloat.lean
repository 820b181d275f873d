import Verif.SpecLanczos
import Verif.Lemmas.PosFloat
import Verif.Lemmas.SumFloat
import Verif.Props.Lanczos
import Mathlib.Analysis.SpecialFunctions.Trigonometric.Sinc
import Mathlib.Analysis.SpecialFunctions.Integrals.Basic

/-!
# The Lanczos filters in binary32 (C128)
-/

namespace D10
open Spec

/-! ## The exact window -/

theorem sinc_integral (x : ℝ) : Real.sinc x = ∫ t in (0 : ℝ)..1, Real.cos (x * t) := by
  by_cases h : x = 0
  · subst h; simp
  · rw [Real.sinc_of_ne_zero h, intervalIntegral.integral_comp_mul_left _ h, integral_cos]
    simp [div_eq_inv_mul]

theorem sinc_lip (x y : ℝ) : |Real.sinc x - Real.sinc y| ≤ |x - y| / 2 := by
  have hc : ∀ z : ℝ, IntervalIntegrable (fun t => Real.cos (z * t)) MeasureTheory.volume 0 1 := fun z =>
    (by fun_prop : Continuous fun t => Real.cos (z * t)).intervalIntegrable _ _
  rw [sinc_integral, sinc_integral, ← intervalIntegral.integral_sub (hc x) (hc y)]
  have key : ‖∫ t in (0 : ℝ)..1, Real.cos (x * t) - Real.cos (y * t)‖ ≤ ∫ t in (0 : ℝ)..1, |x - y| * t := by
    refine intervalIntegral.norm_integral_le_of_norm_le zero_le_one ?_ ?_
    · refine Filter.Eventually.of_forall fun t ht => ?_
      rw [Real.norm_eq_abs]
      refine (Real.abs_cos_sub_cos_le _ _).trans ?_
      rw [← sub_mul, abs_mul, abs_of_pos ht.1]
    · exact (by fun_prop : Continuous fun t => |x - y| * t).intervalIntegrable _ _
  rw [intervalIntegral.integral_const_mul, integral_id, Real.norm_eq_abs] at key
  linarith

/-- The Lanczos window over the real numbers. -/
noncomputable def lobes (v : ℝ) : ℝ := if v < 3 then Real.sinc (v * piC) * Real.sinc (v / 3 * piC) else 0

theorem lobes_le (v : ℝ) : |lobes v| ≤ 1 := by
  unfold lobes
  split
  · rw [abs_mul]
    exact mul_le_one₀ (Real.abs_sinc_le_one _) (abs_nonneg _) (Real.abs_sinc_le_one _)
  · simp

theorem piC_lt : piC < 3.1416 := by unfold piC; norm_num
theorem piC_gt : 3.1415 < piC := by unfold piC; norm_num

theorem lobes_both (a b : ℝ) : |Real.sinc (a * piC) * Real.sinc (a / 3 * piC) - Real.sinc (b * piC) * Real.sinc (b / 3 * piC)| ≤
    2.0945 * |a - b| := by
  have h1 := sinc_lip (a * piC) (b * piC)
  have h2 := sinc_lip (a / 3 * piC) (b / 3 * piC)
  rw [← sub_mul, abs_mul, abs_of_pos (by linarith [piC_gt] : 0 < piC)] at h1 h2
  rw [← sub_div, abs_div, abs_of_pos (by norm_num : (0 : ℝ) < 3)] at h2
  have e : Real.sinc (a * piC) * Real.sinc (a / 3 * piC) - Real.sinc (b * piC) * Real.sinc (b / 3 * piC) =
      (Real.sinc (a * piC) - Real.sinc (b * piC)) * Real.sinc (a / 3 * piC) +
        Real.sinc (b * piC) * (Real.sinc (a / 3 * piC) - Real.sinc (b / 3 * piC)) := by ring
  rw [e]
  refine (abs_add_le _ _).trans ?_
  rw [abs_mul, abs_mul]
  have k1 := mul_le_mul_of_nonneg_left (Real.abs_sinc_le_one (a / 3 * piC))
    (abs_nonneg (Real.sinc (a * piC) - Real.sinc (b * piC)))
  have k2 := mul_le_mul_of_nonneg_right (Real.abs_sinc_le_one (b * piC))
    (abs_nonneg (Real.sinc (a / 3 * piC) - Real.sinc (b / 3 * piC)))
  nlinarith [piC_lt, abs_nonneg (a - b)]

theorem lobes_end : |Real.sinc (3 * piC) * Real.sinc (3 / 3 * piC)| ≤ 1e-18 := by
  have h := sin_piC (k := 3) (by norm_num) le_rfl
  have e : Real.sin (3 * Real.pi) = 0 := by
    have := Real.sin_nat_mul_pi 3
    push_cast at this
    exact this
  rw [e, sub_zero] at h
  have hp : 3 * piC ≠ 0 := by linarith [piC_gt]
  rw [abs_mul, Real.sinc_of_ne_zero hp, abs_div, abs_of_pos (by linarith [piC_gt] : 0 < 3 * piC)]
  have h1 : |Real.sin (3 * piC)| / (3 * piC) ≤ |Real.sin (3 * piC)| :=
    div_le_self (abs_nonneg _) (by linarith [piC_gt])
  have h2 := mul_le_mul_of_nonneg_left (Real.abs_sinc_le_one (3 / 3 * piC))
    (by have := piC_gt; positivity : 0 ≤ |Real.sin (3 * piC)| / (3 * piC))
  linarith

/-- The window has no steps, except for one that comes from the digits of π. -/
theorem lobes_lip (a b : ℝ) : |lobes a - lobes b| ≤ 2.0945 * |a - b| + 1e-18 := by
  have key : ∀ a b : ℝ, a < 3 → ¬ b < 3 → |lobes a - lobes b| ≤ 2.0945 * |a - b| + 1e-18 := by
    intro a b ha hb
    have k := lobes_both a 3
    unfold lobes
    rw [if_pos ha, if_neg hb, sub_zero]
    have h1 : |a - 3| ≤ |a - b| := by
      rw [abs_of_neg (by linarith), abs_of_neg (by linarith)]; linarith
    have h2 := abs_add_le (Real.sinc (a * piC) * Real.sinc (a / 3 * piC) - Real.sinc (3 * piC) * Real.sinc (3 / 3 * piC))
      (Real.sinc (3 * piC) * Real.sinc (3 / 3 * piC))
    rw [sub_add_cancel] at h2
    linarith [lobes_end]
  by_cases ha : a < 3 <;> by_cases hb : b < 3
  · unfold lobes
    rw [if_pos ha, if_pos hb]
    linarith [lobes_both a b]
  · exact key a b ha hb
  · rw [abs_sub_comm, abs_sub_comm a]; exact key b a hb ha
  · unfold lobes
    rw [if_neg ha, if_neg hb]
    simp; positivity

section Exact
variable [Junk]

theorem cardinalSine_sinc (v : ℝ) : cardinalSine v = Real.sinc (v * piC) := by
  have hp : piC ≠ 0 := by linarith [piC_gt]
  by_cases h : v = 0
  · subst h
    have e : ((0 : ℝ) ==. lit 0) = true := by rw [Exact.eq]; ex_simp
    unfold cardinalSine
    rw [e]
    simp; ex_simp
  · rw [cardinalSine_eq h, Real.sinc_of_ne_zero (mul_ne_zero h hp)]

theorem lanczos3_lobes (v : ℝ) : lanczos3 v = lobes v := by
  unfold lanczos3 lobes
  by_cases h : v < 3
  · have e : (v <. lit 3) = true := by rw [Exact.lt]; ex_simp; exact h
    rw [e, if_pos rfl, if_pos h, cardinalSine_sinc, cardinalSine_sinc]
    ex_simp
  · have e : (v <. lit 3) = false := by
      rw [Bool.eq_false_iff]; intro h'; rw [Exact.lt] at h'; ex_simp at h'; exact h h'
    rw [e, if_neg h]
    simp; ex_simp

theorem lanczosScaled_lobes {s : ℝ} (hs : s ≠ 0) (v : ℝ) : lanczosScaled s v = lobes (v / s * 3) * (3 / s) := by
  have e1 : v /. s *. lit 3 = v / s * 3 := by rw [Exact.div hs]; ex_simp
  have e2 : (v / s * 3 /. lit 3 : ℝ) = v / s * 3 / 3 := by ex_simp
  have e3 : (lit 3 /. s : ℝ) = 3 / s := by rw [Exact.div hs]; ex_simp
  unfold lanczosScaled lobes
  rw [e1, e2, e3]
  by_cases h : v / s * 3 < 3
  · have e : (v / s * 3 <. lit 3) = true := by rw [Exact.lt]; ex_simp; exact h
    rw [e, if_pos rfl, if_pos h, cardinalSine_sinc, cardinalSine_sinc]
    ex_simp
  · have e : (v / s * 3 <. lit 3) = false := by
      rw [Bool.eq_false_iff]; intro h'; rw [Exact.lt] at h'; ex_simp at h'; exact h h'
    rw [e, if_neg h]
    simp; ex_simp

end Exact

/-! ## The window in binary32 -/

section Window
variable [Libm b32]

omit [Libm b32] in
theorem NearF.move {x : F32} {q r e d B C : ℝ} (h : NearF x q e B) (hd : |q - r| ≤ d) (hr : |r| ≤ C) : NearF x r (e + d) C := by
  refine ⟨⟨h.close.fin, ?_⟩, hr⟩
  have := abs_add_le ((x.val : ℝ) - q) (q - r)
  rw [sub_add_sub_cancel] at this
  linarith [h.close.err]

omit [Libm b32] in
theorem ofRat_val {s : Bool} {q : ℚ} (h : (FP.ofRat b32 s q).fin = true) : (FP.ofRat b32 s q).val = rn b32 q := by
  unfold FP.ofRat at h ⊢
  split
  · rename_i h0; rw [h0]; rfl
  · rename_i h0
    rw [dif_neg h0] at h
    split
    · rfl
    · rename_i h1; rw [dif_neg h1] at h; simp [FP.fin] at h

theorem near_pi : NearF (lit 3.14159265358979323846264338327950288 : F32) piC (4 / 33554432) 3.1416 := by
  have := NearF.lit (B := 3.1416) 2 3.14159265358979323846264338327950288 (by norm_num) (by norm_num) (by norm_num)
  refine (this.congr ?_).mono (by norm_num) le_rfl
  unfold piC; norm_num

theorem cardinalSine_near {δ : ℝ} (hs : SinNear δ) (hδ : 0 ≤ δ) (hδ1 : δ ≤ 1 / 2) {v : F32} (hv : v.fin = true)
    (h0 : 0 ≤ v.val) (h3 : v.val ≤ 3) :
    NearF (cardinalSine v) (Real.sinc (v.val * piC)) (δ + 16 / 33554432) 1 := by
  have z := FP.lit0
  by_cases hz : v.val = 0
  · have e : (v ==. lit 0) = true := by
      show FP.eq v (FP.ofRat b32 false 0) = true
      rw [FP.eq_fin hv z.1, decide_eq_true_iff]
      rw [hz]; exact z.2.symm
    unfold cardinalSine
    rw [e, if_pos rfl, hz]
    have := NearF.one
    simp only [Rat.cast_zero, zero_mul, Real.sinc_zero]
    exact this.mono (by positivity) le_rfl
  · have e : (v ==. lit 0) = false := by
      show FP.eq v (FP.ofRat b32 false 0) = false
      rw [FP.eq_fin hv z.1, decide_eq_false_iff_not]
      intro h; exact hz (h.trans z.2)
    unfold cardinalSine
    rw [e, if_neg Bool.false_ne_true]
    have v0 : 0 < v.val := lt_of_le_of_ne h0 (Ne.symm hz)
    have hr : |(v.val : ℝ)| ≤ 3 := by
      rw [abs_of_nonneg (by exact_mod_cast h0)]; exact_mod_cast h3
    have pi := near_pi
    have prod := NearF.mul 4 (by norm_num) (NearF.of_fin hv hr) pi (by norm_num)
    have prod' := prod.mono (d := 28 / 33554432) (B := 9.4248) (by norm_num) (by norm_num)
    generalize hp : (v *. lit 3.14159265358979323846264338327950288 : F32) = p at prod' ⊢
    have pf := prod'.close.fin
    have perr := prod'.close.err
    have p0 : 0 < p.val := by
      have hpi : 1 ≤ (lit 3.14159265358979323846264338327950288 : F32).val := by
        have h1 := (abs_le.1 pi.close.err).1
        have : (1 : ℝ) ≤ ((lit 3.14159265358979323846264338327950288 : F32).val : ℝ) := by
          have := piC_gt
          norm_num at h1 this ⊢; linarith
        exact_mod_cast this
      have pv : p.val = rn b32 (v.val * (lit 3.14159265358979323846264338327950288 : F32).val) := by
        have e2 : p = FP.mul v (lit 3.14159265358979323846264338327950288) := hp.symm
        rw [e2, FP.mul_fin hv pi.close.fin] at pf ⊢
        exact ofRat_val pf
      rw [pv]
      exact lt_of_lt_of_le v0 (rep_le_rn (FP.fin_rep hv).1 (by nlinarith))
    have p0' : (0 : ℝ) < p.val := by exact_mod_cast p0
    have p10 : p.val ≤ 10 := by
      have h1 : (v.val : ℝ) * piC ≤ 9.4248 := (le_abs_self _).trans prod'.le
      have h2 := (abs_le.1 perr).2
      have : (p.val : ℝ) ≤ 10 := by norm_num at h1 h2 ⊢; linarith
      exact_mod_cast this
    have hsin := hs p pf p0 p10
    show NearF (FP.div (Scalar.sin p) p) _ _ _
    rw [FP.div_fin hsin.fin pf p0.ne']
    have hsc : Real.sinc p.val = Real.sin p.val / p.val := Real.sinc_of_ne_zero p0'.ne'
    have quot : |(((Scalar.sin p).val / p.val : ℚ) : ℝ) - Real.sinc p.val| ≤ δ := by
      push_cast
      rw [hsc, ← sub_div, abs_div, abs_of_pos p0', div_le_iff₀ p0']
      exact hsin.err
    have r := NearF.round (b := (Scalar.sin p).isNeg ^^ p.isNeg) (B := 1) 1 (by norm_num) quot (Real.abs_sinc_le_one _)
      (by norm_num; linarith)
    have lip := sinc_lip p.val (v.val * piC)
    exact (r.move (d := 14 / 33554432) (by linarith) (Real.abs_sinc_le_one _)).mono (by norm_num; linarith) le_rfl

theorem third_near {v : F32} (hv : v.fin = true) (h0 : 0 ≤ v.val) (h3 : v.val ≤ 3) :
    NearF (v /. lit 3) ((v.val : ℝ) / 3) (1 / 33554432) 1 ∧ 0 ≤ (v /. lit 3 : F32).val ∧ (v /. lit 3 : F32).val ≤ 3 := by
  have hr : |(v.val : ℝ)| ≤ 3 := by
    rw [abs_of_nonneg (by exact_mod_cast h0)]; exact_mod_cast h3
  have three := NearF.three
  have d := NearF.div (m := 3) 0 (by norm_num) (NearF.of_fin hv hr) three (by norm_num) (by norm_num) (by norm_num)
  have d' := d.mono (d := 1 / 33554432) (B := 1) (by norm_num) (by norm_num)
  have l3 : (lit 3 : F32).val = 3 := by
    have := three.close.err
    have h : ((lit 3 : F32).val : ℝ) = 3 := by
      have := abs_nonneg ((lit 3 : F32).val - 3 : ℝ)
      have : ((lit 3 : F32).val : ℝ) - 3 = 0 := abs_eq_zero.1 (by linarith)
      linarith
    exact_mod_cast h
  refine ⟨d', ?_, ?_⟩
  · have f := d'.close.fin
    have e : (v /. lit 3 : F32) = FP.div v (lit 3) := rfl
    rw [e, FP.div_fin hv three.close.fin (by rw [l3]; norm_num)] at f ⊢
    rw [ofRat_val f]
    exact rep_le_rn (f := b32) (r := 0) (IsRep.zero _) (by rw [l3]; positivity)
  · have h1 := (abs_le.1 d'.close.err).2
    have h2 := (le_abs_self _).trans d'.le
    have : ((v /. lit 3 : F32).val : ℝ) ≤ 3 := by linarith
    exact_mod_cast this

/-- The product of the two sines. -/
theorem lobes_near {δ : ℝ} (hs : SinNear δ) (hδ : 0 ≤ δ) (hδ1 : δ ≤ 1 / 1000) {v : F32} (hv : v.fin = true)
    (h0 : 0 ≤ v.val) :
    NearF (lanczos3 v) (lobes v.val) (2.01 * δ + 37 / 33554432) 1 := by
  have three := NearF.three
  have l3 : (lit 3 : F32).val = 3 := by
    have := three.close.err
    have h : ((lit 3 : F32).val : ℝ) = 3 := by
      have := abs_nonneg ((lit 3 : F32).val - 3 : ℝ)
      have : ((lit 3 : F32).val : ℝ) - 3 = 0 := abs_eq_zero.1 (by linarith)
      linarith
    exact_mod_cast h
  by_cases h : v.val < 3
  · have e : (v <. lit 3) = true := by
      show FP.lt v _ = true
      rw [FP.lt_fin hv three.close.fin, decide_eq_true_iff, l3]; exact h
    have h' : (v.val : ℝ) < 3 := by exact_mod_cast h
    unfold lanczos3 lobes
    rw [e, if_pos rfl, if_pos h']
    obtain ⟨t1, t2, t3⟩ := third_near hv h0 h.le
    have a := cardinalSine_near hs hδ (by linarith) hv h0 h.le
    have b := cardinalSine_near hs hδ (by linarith) t1.close.fin t2 t3
    have lip := sinc_lip ((v /. lit 3 : F32).val * piC) ((v.val : ℝ) / 3 * piC)
    rw [← sub_mul, abs_mul, abs_of_pos (by linarith [piC_gt] : 0 < piC)] at lip
    have b' := (b.move (r := Real.sinc ((v.val : ℝ) / 3 * piC)) (d := 2 / 33554432) (by nlinarith [piC_lt, t1.close.err, abs_nonneg (((v /. lit 3 : F32).val : ℝ) - v.val / 3)])
      (Real.abs_sinc_le_one _)).mono (d := δ + 18 / 33554432) (B := 1) (by linarith) le_rfl
    have cross : (δ + 16 / 33554432) * (δ + 18 / 33554432) ≤ (δ + 16 / 33554432) * (1 / 900) := by
      apply mul_le_mul_of_nonneg_left _ (by positivity)
      norm_num; linarith
    have m := NearF.mul 1 (by norm_num) a b' (by norm_num at cross ⊢; linarith)
    exact m.mono (by norm_num at cross ⊢; linarith) (by norm_num)
  · have e : (v <. lit 3) = false := by
      show FP.lt v _ = false
      rw [FP.lt_fin hv three.close.fin, decide_eq_false_iff_not, l3]; exact h
    have h' : ¬ (v.val : ℝ) < 3 := by exact_mod_cast h
    unfold lanczos3 lobes
    rw [e, if_neg Bool.false_ne_true, if_neg h']
    exact zero_near.mono (by positivity) zero_le_one

/-- The window of the fixed filter, for an argument that is not exact. -/
theorem lanczos3_near {δ : ℝ} (hs : SinNear δ) (hδ : 0 ≤ δ) (hδ1 : δ ≤ 1 / 1000) {v : F32} {q B : ℝ} (k : ℝ)
    (hv : NearF v q (k / 33554432) B) (h0 : 0 ≤ v.val) :
    NearF (lanczos3 v) (lobes q) (2.01 * δ + (37.1 + 2.0945 * k) / 33554432) 1 := by
  have a := lobes_near hs hδ hδ1 hv.close.fin h0
  have lip := lobes_lip v.val q
  exact (a.move (r := lobes q) (d := (0.1 + 2.0945 * k) / 33554432) (by have := hv.close.err; norm_num at *; linarith) (lobes_le _)).mono
    (by norm_num; linarith) le_rfl

theorem nonneg_mul {x y : F32} (hx : x.fin = true) (hy : y.fin = true) (x0 : 0 ≤ x.val) (y0 : 0 ≤ y.val)
    (h : (x *. y : F32).fin = true) : 0 ≤ (x *. y : F32).val := by
  have e : (x *. y : F32) = FP.mul x y := rfl
  rw [e, FP.mul_fin hx hy] at h ⊢
  rw [ofRat_val h]
  exact rep_le_rn (f := b32) (r := 0) (IsRep.zero _) (by positivity)

theorem nonneg_div {x y : F32} (hx : x.fin = true) (hy : y.fin = true) (x0 : 0 ≤ x.val) (y0 : 0 < y.val)
    (h : (x /. y : F32).fin = true) : 0 ≤ (x /. y : F32).val := by
  have e : (x /. y : F32) = FP.div x y := rfl
  rw [e, FP.div_fin hx hy y0.ne'] at h ⊢
  rw [ofRat_val h]
  exact rep_le_rn (f := b32) (r := 0) (IsRep.zero _) (by positivity)

/-- The window stretched to `n` pixels. -/
theorem scaled_near {δ : ℝ} (hs : SinNear δ) (hδ : 0 ≤ δ) (hδ1 : δ ≤ 1 / 1000) {n : Nat} (h3 : 3 ≤ n) (hn : n ≤ 4096)
    {v : F32} {q : ℝ} (hv : NearF v q ((2 * n + 5) / 33554432) (n + 1)) (h0 : 0 ≤ v.val) :
    NearF (lanczosScaled (Scalar.ofNat n) v) (lobes (q / n * 3) * (3 / n))
      (3 / n * (2.01 * δ + 90 / 33554432) + 3.1 / 33554432) (3 / n) := by
  obtain ⟨nf, nv⟩ := nat_exact n (by omega)
  have n3 : (3 : ℝ) ≤ n := by exact_mod_cast h3
  have n0 : (0 : ℝ) < n := by linarith
  have nn : NearF (Scalar.ofNat n : F32) n 0 n := by
    have := NearF.of_fin (B := n) nf (by rw [nv]; simp)
    rw [nv] at this; simpa using this
  have d := NearF.div (m := (n : ℝ)) 1 (by norm_num) hv nn (le_abs_self _) n0 (by
    rw [sub_zero, mul_zero, zero_div, add_zero, ← add_div, div_le_iff₀ n0]
    norm_num; nlinarith)
  have d' := d.mono (d := 17 / 3 / 33554432) (B := 4 / 3) (by
    rw [sub_zero, mul_zero, zero_div, add_zero]
    have : (2 * (n : ℝ) + 5) / 33554432 / n ≤ 11 / 3 / 33554432 := by
      rw [div_le_iff₀ n0]; linarith
    norm_num at this ⊢; linarith) (by rw [div_le_iff₀ n0]; linarith)
  have m := (NearF.mul 3 (by norm_num) d' NearF.three (by norm_num)).mono (d := 25 / 33554432) (B := 4) (by norm_num) (by norm_num)
  have q0 : 0 < (Scalar.ofNat n : F32).val := by rw [nv]; exact_mod_cast n0
  have three := NearF.three
  have l3 : 0 ≤ (lit 3 : F32).val := by
    have h1 := (abs_le.1 three.close.err).1
    have : (0 : ℝ) ≤ (lit 3 : F32).val := by linarith
    exact_mod_cast this
  have u0 := nonneg_mul d'.close.fin three.close.fin (nonneg_div hv.close.fin nf h0 q0 d'.close.fin) l3 m.close.fin
  have w := (lanczos3_near hs hδ hδ1 25 m u0).mono (d := 2.01 * δ + 89.5 / 33554432) (B := 1) (by norm_num) le_rfl
  have r := NearF.div (m := (n : ℝ)) 0 (by norm_num) three nn (le_abs_self _) n0 (by
    rw [sub_zero, mul_zero, zero_div, zero_div, add_zero, add_zero, div_le_iff₀ n0]; linarith)
  have r' := r.mono (d := 1 / 33554432) (B := 3 / n) (by norm_num) le_rfl
  have hle : 3 / (n : ℝ) ≤ 1 := by rw [div_le_iff₀ n0]; linarith
  have h0n : 0 ≤ 3 / (n : ℝ) := by positivity
  unfold lanczosScaled
  unfold lanczos3 at w
  generalize (v /. Scalar.ofNat n *. lit 3 : F32) = u at *
  by_cases hu : (u <. lit 3) = true
  · rw [if_pos hu] at w ⊢
    have k := NearF.mul 1 (by norm_num) w r' (by norm_num; nlinarith)
    refine k.mono ?_ (by rw [one_mul])
    have c : (2.01 * δ + 89.5 / 33554432) * (1 / 33554432) ≤ 0.1 / 33554432 := by
      norm_num; linarith
    norm_num at c ⊢
    nlinarith
  · rw [if_neg hu] at w ⊢
    refine ⟨⟨w.close.fin, ?_⟩, ?_⟩
    · have z : ((lit 0 : F32).val : ℝ) = 0 := by
        have := FP.lit0.2
        exact_mod_cast this
      have k := w.close.err
      rw [z, zero_sub, abs_neg] at k ⊢
      rw [abs_mul, abs_of_nonneg h0n]
      have := mul_le_mul_of_nonneg_right k h0n
      norm_num at *; nlinarith
    · rw [abs_mul, abs_of_nonneg h0n]
      exact mul_le_of_le_one_left h0n (lobes_le _)

/-- The distance of a pixel `z` places from the middle of the window. -/
theorem place_near {x t : F32} {z : Int} {s : Nat} {f : ℝ} (hx : x.fin = true) (hv : x.val = z) (hz : |z| ≤ s)
    (hs : s ≤ 4096) (ht : NearF t f (1 / 33554432) 1) (f0 : 0 ≤ f) (f1 : f ≤ 1) :
    NearF (Scalar.abs (x -. t)) |(z : ℝ) - f| ((2 * s + 5) / 33554432) (s + 1) ∧ 0 ≤ (Scalar.abs (x -. t) : F32).val := by
  have hz' : |(z : ℝ)| ≤ s := by exact_mod_cast hz
  obtain ⟨k, k1, k2, k3⟩ := pow_between (m := s + 2) (by omega) (by omega)
  have k2' : (s : ℝ) + 2 ≤ 2 ^ k := by
    have := (Rat.cast_le (K := ℝ)).2 k2; push_cast at this; exact this
  have k3' : (2 : ℝ) ^ k ≤ 2 * (s + 2) := by
    have := (Rat.cast_le (K := ℝ)).2 k3; push_cast at this; exact this
  have a : NearF x z 0 s := by
    have := NearF.of_fin (B := (s : ℝ)) hx (by rw [hv]; simpa using hz')
    rw [hv] at this; simpa using this
  have d := NearF.sub' (C := (s : ℝ) + 1) k (by omega) a ht (by
    rw [abs_le] at hz' ⊢; constructor <;> linarith [hz'.1, hz'.2]) (by norm_num; linarith)
  refine ⟨d.abs.mono ?_ le_rfl, ?_⟩
  · rw [zero_add, ← add_div]
    apply div_le_div_of_nonneg_right _ (by norm_num)
    linarith
  · have := (FP.abs_fin d.close.fin).2
    show 0 ≤ (FP.abs _).val
    rw [this]; exact abs_nonneg _

omit [Libm b32] in
theorem whole {q : ℚ} {z : Int} (hq : q = z) (hz : |z| ≤ 16777216) (b : Bool) :
    (FP.ofRat b32 b q).fin = true ∧ (FP.ofRat b32 b q).val = z := by
  subst hq
  have r := FP.int_finite (f := b32) z (by have : (b32.prec) = 24 := rfl; rw [this]; norm_num; exact hz)
  exact FP.ofRat_rep r.1 r.2

/-- `i - (N - 1) / 2` -/
theorem tap_middle {N s i : Nat} (hN : N = 2 * s + 1) (hs : s ≤ 4096) (hi : i < N) :
    (Scalar.ofNat i -. (Scalar.ofNat N -. lit 1) /. lit 2 : F32).fin = true ∧
      (Scalar.ofNat i -. (Scalar.ofNat N -. lit 1) /. lit 2 : F32).val = ((i : Int) - s : Int) := by
  obtain ⟨i1, i2⟩ := nat_exact i (by omega)
  obtain ⟨n1, n2⟩ := nat_exact N (by omega)
  have o : (lit 1 : F32).fin = true ∧ (lit 1 : F32).val = 1 := FP.lit1
  have t : (lit 2 : F32).fin = true ∧ (lit 2 : F32).val = ((2 : Int) : ℚ) :=
    whole (q := 2) (z := 2) (by norm_num) (by norm_num) false
  have a : (Scalar.ofNat N -. lit 1 : F32).fin = true ∧ (Scalar.ofNat N -. lit 1 : F32).val = ((2 * s : Int) : ℚ) := by
    have e : (Scalar.ofNat N -. lit 1 : F32) = FP.sub (Scalar.ofNat N) (lit 1) := rfl
    rw [e, FP.sub_fin n1 o.1]
    refine whole ?_ (by rw [abs_le]; omega) _
    rw [n2, o.2, hN]; push_cast; ring
  have b : ((Scalar.ofNat N -. lit 1) /. lit 2 : F32).fin = true ∧
      ((Scalar.ofNat N -. lit 1) /. lit 2 : F32).val = ((s : Int) : ℚ) := by
    have e : ((Scalar.ofNat N -. lit 1) /. lit 2 : F32) = FP.div (Scalar.ofNat N -. lit 1) (lit 2) := rfl
    rw [e, FP.div_fin a.1 t.1 (by rw [t.2]; norm_num)]
    refine whole ?_ (by rw [abs_le]; omega) _
    rw [a.2, t.2]; push_cast; ring
  have e : (Scalar.ofNat i -. (Scalar.ofNat N -. lit 1) /. lit 2 : F32) =
    FP.sub (Scalar.ofNat i) ((Scalar.ofNat N -. lit 1) /. lit 2) := rfl
  rw [e, FP.sub_fin i1 b.1]
  refine whole ?_ (by rw [abs_le]; omega) _
  rw [i2, b.2]; push_cast; ring

omit [Libm b32] in
theorem exact_distance [Junk] (N s i : Nat) (hN : N = 2 * s + 1) (f : ℝ) :
    (Scalar.abs (Scalar.ofNat i -. (Scalar.ofNat N -. lit 1) /. lit 2 -. f) : ℝ) = |(((i : Int) - s : Int) : ℝ) - f| := by
  unfold Scalar.ofNat
  ex_simp
  subst hN
  push_cast
  congr 1
  ring

/-- The weights of the fixed filters. -/
theorem tap_near [Junk] {δ : ℝ} (hs : SinNear δ) (hδ : 0 ≤ δ) (hδ1 : δ ≤ 1 / 1000) {N s i : Nat} (hN : N = 2 * s + 1)
    (h3 : 3 ≤ s) (hl : s ≤ 2047) (hi : i < N) {t : F32} {f : ℝ} (ht : NearF t f (1 / 33554432) 1) (f0 : 0 ≤ f) (f1 : f ≤ 1) :
    NearF (lanczosTap N t i) (lanczosTap N f i) (7 / N * (2.01 * δ + 90 / 33554432) + 3.1 / 33554432) (7 / N) := by
  obtain ⟨x1, x2⟩ := tap_middle hN (by omega) hi
  obtain ⟨p1, p2⟩ := place_near x1 x2 (s := s) (by rw [abs_le]; omega) (by omega) ht f0 f1
  have N0 : (7 : ℝ) ≤ N := by exact_mod_cast (by omega : 7 ≤ N)
  have hp : (0 : ℝ) < N := by linarith
  unfold lanczosTap
  simp only [exact_distance N s i hN]
  by_cases h7 : N = 7
  · have s3 : s = 3 := by omega
    subst s3
    rw [if_pos h7, if_pos h7, lanczos3_lobes]
    subst h7
    have k := lanczos3_near hs hδ hδ1 11 (p1.mono (B := 3 + 1) (by norm_num) (by norm_num)) p2
    exact k.mono (by norm_num; linarith) (by norm_num)
  · have e : (Scalar.ofNat N : ℝ) = N := by unfold Scalar.ofNat; ex_simp
    rw [if_neg h7, if_neg h7, e, lanczosScaled_lobes hp.ne']
    have sN : (s : ℝ) ≤ N := by exact_mod_cast (by omega : s ≤ N)
    have k := scaled_near hs hδ hδ1 (n := N) (by omega) (by omega)
      (p1.mono (d := (2 * N + 5) / 33554432) (B := N + 1) (by linarith) (by linarith)) p2
    have h37 : 3 / (N : ℝ) ≤ 7 / N := by gcongr; norm_num
    exact k.mono (by have : 0 ≤ 2.01 * δ + 90 / 33554432 := by positivity
                     nlinarith) h37

/-- The weights of the filter for large reductions. -/
theorem dynTap_near [Junk] {δ : ℝ} (hs : SinNear δ) (hδ : 0 ≤ δ) (hδ1 : δ ≤ 1 / 1000) {N s i : Nat} (hN : N = 2 * s + 1)
    (h3 : 3 ≤ s) (hl : s ≤ 4095) (hi : i < N) {t : F32} {f : ℝ} (ht : NearF t f (1 / 33554432) 1) (f0 : 0 ≤ f) (f1 : f ≤ 1) :
    NearF (lanczosDynTap s t i) (lanczosDynTap s f i) (7 / N * (2.01 * δ + 90 / 33554432) + 3.1 / 33554432) (7 / N) := by
  have hz : |(i : Int) - s| ≤ s := by rw [abs_le]; omega
  obtain ⟨x1, x2⟩ := whole (q := (((i : Int) - s : Int) : ℚ)) (z := (i : Int) - s) rfl (by omega) false
  obtain ⟨p1, p2⟩ := place_near (x := Scalar.ofInt ((i : Int) - s)) x1 x2 (s := s) hz (by omega) ht f0 f1
  have s0 : (3 : ℝ) ≤ s := by exact_mod_cast h3
  have hp : (0 : ℝ) < s := by linarith
  have NN : (N : ℝ) = 2 * s + 1 := by rw [hN]; push_cast; ring
  have h37 : 3 / (s : ℝ) ≤ 7 / N := by
    rw [NN, div_le_div_iff₀ hp (by linarith)]; linarith
  unfold lanczosDynTap
  have e : (Scalar.ofNat s : ℝ) = s := by unfold Scalar.ofNat; ex_simp
  have e2 : (Scalar.abs (Scalar.ofInt ((i : Int) - s) -. f) : ℝ) = |(((i : Int) - s : Int) : ℝ) - f| := by
    unfold Scalar.ofInt; ex_simp
  rw [e, e2, lanczosScaled_lobes hp.ne']
  have k := scaled_near hs hδ hδ1 (n := s) h3 (by omega) p1 p2
  exact k.mono (by have : 0 ≤ 2.01 * δ + 90 / 33554432 := by positivity
                   nlinarith) h37

/-! ## The weighted sums -/

theorem sum_near (m : ℕ) (hm : m + 1 ≤ 100) {N : Nat} {f : Nat → F32} {q : Nat → ℝ} {e B : ℝ}
    (hf : ∀ i, i < N → NearF (f i) (q i) e B) (he : 0 ≤ e) (hB : N * B ≤ 2 ^ m) (hE : N * (e + 2 ^ (m + 1) / 33554432) ≤ 2 ^ m) :
    NearF (Spec.sum N f) (∑ i ∈ Finset.range N, q i) (N * (e + 2 ^ (m + 1) / 33554432)) (N * B) := by
  have key := fold_near m hm f q (fun _ => B) e (List.range N) (Scalar.lit 0) 0 0 0 zero_near
    (fun i hi => hf i (List.mem_range.1 hi)) he (by simpa using hB) (by simpa using hE)
  rw [List.foldl_map] at key
  simp only [zero_add, List.length_range, List.map_const', List.sum_replicate, nsmul_eq_mul] at key
  refine key.congr ?_
  rw [Finset.sum_eq_multiset_sum, Finset.range_val, Multiset.range]
  rfl

/-- One channel of a sample with rounded weights. -/
theorem window_near {N : Nat} (h7 : 7 ≤ N) (hN : N ≤ 8192) {wx wy : Nat → F32} {qx qy : Nat → ℝ} {η : ℝ}
    (hx : ∀ i, i < N → NearF (wx i) (qx i) η (7 / N)) (hy : ∀ j, j < N → NearF (wy j) (qy j) η (7 / N))
    (hη : N * η ≤ 1 / 50) {c : Nat → Nat → F32} (hc : ∀ i j, (c i j).fin = true ∧ 0 ≤ (c i j).val ∧ (c i j).val ≤ 1) :
    Close (Spec.sum N fun j => (Spec.sum N fun i => c i j *. wx i) *. wy j)
      (∑ j ∈ Finset.range N, (∑ i ∈ Finset.range N, (c i j).val * qx i) * qy j)
      (14 * (N * η) + 262 * (N / 33554432) + N * η * (N * η + 18 * (N / 33554432))) := by
  have η0 : 0 ≤ η := (hx 0 (by omega)).e_nonneg
  have N7 : (7 : ℝ) ≤ N := by exact_mod_cast h7
  have N8 : (N : ℝ) ≤ 8192 := by exact_mod_cast hN
  have N0 : (0 : ℝ) < N := by linarith
  have η1 : η ≤ 1 / 350 := by nlinarith
  have w1 : 7 / (N : ℝ) ≤ 1 := by rw [div_le_iff₀ N0]; linarith
  have w0 : 0 ≤ 7 / (N : ℝ) := by positivity
  have Nw : (N : ℝ) * (7 / N) = 7 := by field_simp
  have row : ∀ j, NearF (Spec.sum N fun i => c i j *. wx i) (∑ i ∈ Finset.range N, (c i j).val * qx i)
      (N * η + 18 * (N / 33554432)) 7 := by
    intro j
    have k := sum_near 3 (by norm_num) (f := fun i => c i j *. wx i) (q := fun i => (c i j).val * qx i) (N := N)
      (e := η + 2 / 33554432) (B := 7 / N) (fun i hi => by
        have a := NearF.mul 1 (by norm_num) (NearF.unit (hc i j)) (hx i hi) (by norm_num; linarith)
        exact a.mono (by norm_num) (by rw [one_mul])) (by positivity) (by rw [Nw]; norm_num)
      (by norm_num; nlinarith)
    exact k.mono (by norm_num; nlinarith) Nw.le
  have E0 : (0 : ℝ) ≤ N * η + 18 * (N / 33554432) := by positivity
  have E1 : N * η + 18 * (N / 33554432) ≤ 1 / 40 := by norm_num; linarith
  have all := sum_near 6 (by norm_num) (N := N) (f := fun j => (Spec.sum N fun i => c i j *. wx i) *. wy j)
    (q := fun j => (∑ i ∈ Finset.range N, (c i j).val * qx i) * qy j)
    (e := 7 * η + 7 / N * (N * η + 18 * (N / 33554432)) + (N * η + 18 * (N / 33554432)) * η + 8 / 33554432)
    (B := 7 * (7 / N)) (fun j hj => by
      have a := NearF.mul 3 (by norm_num) (row j) (hy j hj) (by nlinarith)
      exact a.mono (by norm_num) le_rfl) (by positivity) (by rw [mul_left_comm, Nw]; norm_num) (by
      have c1 : (N : ℝ) * (7 / N * (N * η + 18 * (N / 33554432))) = 7 * (N * η + 18 * (N / 33554432)) := by
        rw [← mul_assoc, Nw]
      have c2 : (N : ℝ) * ((N * η + 18 * (N / 33554432)) * η) = (N * η + 18 * (N / 33554432)) * (N * η) := by ring
      have c3 : (N * η + 18 * (N / 33554432)) * (N * η) ≤ 1 / 40 * (1 / 50) :=
        mul_le_mul E1 hη (by positivity) (by norm_num)
      rw [mul_add, mul_add, mul_add, mul_add, c1, c2]
      norm_num at c3 ⊢; linarith)
  refine all.close.mono (le_of_eq ?_)
  have c1 : (N : ℝ) * (7 / N * (N * η + 18 * (N / 33554432))) = 7 * (N * η + 18 * (N / 33554432)) := by
    rw [← mul_assoc, Nw]
  rw [mul_add, mul_add, mul_add, mul_add, c1]
  norm_num
  ring

omit [Libm b32] in
/-- The total for the weights of the filters. -/
theorem window_cost {δ : ℝ} (hδ : 0 ≤ δ) (hδ1 : δ ≤ 1 / 1000) {N : Nat} (h7 : 7 ≤ N) (hN : N ≤ 8192) :
    let η : ℝ := 7 / N * (2.01 * δ + 90 / 33554432) + 3.1 / 33554432
    N * η ≤ 1 / 50 ∧ 14 * (N * η) + 262 * (N / 33554432) + N * η * (N * η + 18 * (N / 33554432)) ≤ lanczosError δ N := by
  intro η
  have N7 : (7 : ℝ) ≤ N := by exact_mod_cast h7
  have N8 : (N : ℝ) ≤ 8192 := by exact_mod_cast hN
  have N0 : (0 : ℝ) < N := by linarith
  have e : N * η = 7 * (2.01 * δ + 90 / 33554432) + 3.1 * (N / 33554432) := by
    simp only [η]; field_simp
  have h1 : N * η ≤ 1 / 50 := by rw [e]; norm_num; linarith
  have h0 : 0 ≤ N * η := by rw [e]; positivity
  have h2 : N * η + 18 * (N / 33554432) ≤ 1 / 40 := by norm_num; linarith
  refine ⟨h1, ?_⟩
  have h3 := mul_le_mul_of_nonneg_left h2 h0
  unfold lanczosError
  rw [e] at h3 ⊢
  norm_num at h3 ⊢
  linarith

end Window

end D10
