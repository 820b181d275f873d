import Verif.Lemmas.Near
import Verif.Lemmas.Hsl

/-! # HSL in binary32: distances between float results and exact ones -/

namespace D10
open Spec
open Scalar (lit)

/-! ## Differences of floats have a small relative error -/

theorem rn_grid_rel {q : ℚ} {m : ℤ} (h : q = m * pow2 b32.emin) : |rn b32 q - q| ≤ |q| / 16777216 := by
  by_cases h0 : q = 0
  · subst h0; simp [rn_zero]
  have hp : b32.prec = 24 := rfl
  rcases le_or_gt b32.emin (ilog2 q - (b32.prec - 1 : Nat)) with hc | hc
  · have hu : ulpExp b32 q = ilog2 q - (b32.prec - 1 : Nat) := max_eq_left hc
    have e := rn_err b32 q
    rw [hu, hp] at e
    refine e.trans ?_
    have s := (ilog2_spec h0).1
    have e2 : pow2 (ilog2 q - ((24 - 1 : Nat) : ℤ)) = pow2 (ilog2 q) / 8388608 := by
      rw [pow2_sub, pow2_nat]; norm_num
    rw [e2]
    linarith
  · have hu : ulpExp b32 q = b32.emin := max_eq_right hc.le
    rw [rn_of_mul (m := m) (by rw [hu]; exact h), sub_self, abs_zero]
    positivity

theorem rep_grid {q : ℚ} (h : IsRep b32 q) : ∃ m : ℤ, q = m * pow2 b32.emin := by
  obtain ⟨m, e, -, he, rfl⟩ := h
  obtain ⟨z, hz⟩ := pow2_int (show 0 ≤ e - b32.emin by omega)
  refine ⟨m * z, ?_⟩
  push_cast
  rw [← hz, mul_assoc, ← pow2_add]
  rw [show e - b32.emin + b32.emin = e by ring]

section
variable [Libm b32]

/-- The difference of two numbers in [0, 1], with an error relative to it. -/
theorem NearF.sub_rel {x y : F32} (hx : x.fin = true ∧ 0 ≤ x.val ∧ x.val ≤ 1)
    (hy : y.fin = true ∧ 0 ≤ y.val ∧ y.val ≤ 1) :
    NearF (x -. y) ((x.val : ℝ) - y.val) (|(x.val : ℝ) - y.val| / 16777216) |(x.val : ℝ) - y.val| := by
  refine ⟨?_, le_rfl⟩
  show Close (FP.sub x y) _ _
  rw [FP.sub_fin hx.1 hy.1]
  obtain ⟨m, hm⟩ := rep_grid (FP.fin_rep hx.1).1
  obtain ⟨n, hn⟩ := rep_grid (FP.fin_rep hy.1).1
  have g : x.val - y.val = ((m - n : ℤ) : ℚ) * pow2 b32.emin := by rw [hm, hn]; push_cast; ring
  have r := rn_grid_rel g
  have one : IsRep b32 1 ∧ (1 : ℚ) < pow2 b32.emax := by
    have := FP.int_finite (f := b32) 1 (by decide)
    simp only [Int.cast_one, abs_one] at this; exact this
  have v := FP.ofRat_of_le (s := (x.isNeg && y.neg.isNeg)) one.1 one.2
    (q := x.val - y.val) (abs_le.2 ⟨by linarith, by linarith⟩)
  refine ⟨v.1, ?_⟩
  rw [v.2]
  have : ((|rn b32 (x.val - y.val) - (x.val - y.val)| : ℚ) : ℝ) ≤ ((|x.val - y.val| / 16777216 : ℚ) : ℝ) := by
    exact_mod_cast r
  push_cast at this
  exact this

/-- The quotient of two numbers with small relative errors. -/
theorem NearF.ratio {x y : F32} {a d : ℝ} (hd : 0 < d) (hx : NearF x a (d / 16777216) d)
    (hy : NearF y d (d / 16777216) d) : NearF (x /. y) (a / d) (4 / 16777216) 1 := by
  have h1 : d / 16777216 < d := by linarith
  have key : d / 16777216 / (d - d / 16777216) + d * (d / 16777216) / (d * (d - d / 16777216)) =
      2 / 16777215 := by
    field_simp; norm_num
  have := NearF.div (k := 1) (by norm_num) hx hy (m := d) (by rw [abs_of_pos hd]) h1 (by
    rw [key, div_self hd.ne']; norm_num)
  rw [key, div_self hd.ne'] at this
  exact this.mono (by norm_num) le_rfl

end

/-! ## The trapezoid of hue -/

/-- The share of the greatest channel at hue distance `t` (0 and from 2/3 on: none; 1/6 to 1/2: all). -/
noncomputable def trap (t : ℝ) : ℝ := max 0 (min 1 (2 - 6 * |t - 1 / 3|))

theorem trap_nonneg (t : ℝ) : 0 ≤ trap t := le_max_left _ _
theorem trap_le (t : ℝ) : trap t ≤ 1 := max_le zero_le_one (min_le_left _ _)

theorem trap_lip (s t : ℝ) : |trap s - trap t| ≤ 6 * |s - t| := by
  unfold trap
  refine (abs_max_sub_max_le_max _ _ _ _).trans (max_le (by simp) ?_)
  refine (abs_min_sub_min_le_max _ _ _ _).trans (max_le (by simp) ?_)
  have : |(2 - 6 * |s - 1 / 3|) - (2 - 6 * |t - 1 / 3|)| = 6 * |(|t - 1 / 3|) - (|s - 1 / 3|)| := by
    rw [show (2 - 6 * |s - 1 / 3|) - (2 - 6 * |t - 1 / 3|) = 6 * (|t - 1 / 3| - |s - 1 / 3|) by ring,
      abs_mul]; norm_num
  rw [this]
  have := abs_abs_sub_abs_le_abs_sub (t - 1 / 3) (s - 1 / 3)
  rw [show t - 1 / 3 - (s - 1 / 3) = -(s - t) by ring, abs_neg] at this
  linarith

theorem trap_low {t : ℝ} (h : t ≤ 1 / 3) : trap t = max 0 (min 1 (6 * t)) := by
  unfold trap; rw [abs_of_nonpos (by linarith)]; congr 2; ring

theorem trap_high {t : ℝ} (h : 1 / 3 ≤ t) : trap t = max 0 (min 1 (4 - 6 * t)) := by
  unfold trap; rw [abs_of_nonneg (by linarith)]; congr 2; ring

theorem trap_left {t : ℝ} (h : t ≤ 0) : trap t = 0 := by
  rw [trap_low (by linarith), min_eq_right (by linarith), max_eq_left (by linarith)]

theorem trap_right {t : ℝ} (h : 2 / 3 ≤ t) : trap t = 0 := by
  rw [trap_high (by linarith), min_eq_right (by linarith), max_eq_left (by linarith)]

/-- `trap`, repeated with period 1 (for arguments from -1 to 2). -/
noncomputable def wheel (t : ℝ) : ℝ := trap (t + 1) + trap t + trap (t - 1)

theorem wheel_mid {t : ℝ} (h0 : 0 ≤ t) (h1 : t ≤ 1) : wheel t = trap t := by
  unfold wheel; rw [trap_right (t := t + 1) (by linarith), trap_left (t := t - 1) (by linarith)]; ring

theorem wheel_low {t : ℝ} (h1 : t ≤ 0) : wheel t = trap (t + 1) := by
  unfold wheel; rw [trap_left h1, trap_left (t := t - 1) (by linarith)]; ring

theorem wheel_high {t : ℝ} (h1 : 1 ≤ t) : wheel t = trap (t - 1) := by
  unfold wheel; rw [trap_right (t := t) (by linarith), trap_right (t := t + 1) (by linarith)]; ring

theorem wheel_max (t : ℝ) : wheel t = max (trap (t + 1)) (max (trap t) (trap (t - 1))) := by
  have p1 := trap_nonneg (t + 1)
  have p2 := trap_nonneg t
  have p3 := trap_nonneg (t - 1)
  rcases le_total t 0 with h | h
  · rw [wheel_low h, trap_left h, trap_left (t := t - 1) (by linarith), max_self, max_eq_left p1]
  · rcases le_total t 1 with h' | h'
    · rw [wheel_mid h h', trap_right (t := t + 1) (by linarith), trap_left (t := t - 1) (by linarith),
        max_eq_left p2, max_eq_right p2]
    · rw [wheel_high h', trap_right (t := t + 1) (by linarith), trap_right (t := t) (by linarith),
        max_eq_right p3, max_eq_right p3]

theorem wheel_lip (s t : ℝ) : |wheel s - wheel t| ≤ 6 * |s - t| := by
  have a := trap_lip (s + 1) (t + 1)
  have b := trap_lip s t
  have c := trap_lip (s - 1) (t - 1)
  rw [show s + 1 - (t + 1) = s - t by ring] at a
  rw [show s - 1 - (t - 1) = s - t by ring] at c
  rw [wheel_max, wheel_max]
  exact (abs_max_sub_max_le_max _ _ _ _).trans (max_le a ((abs_max_sub_max_le_max _ _ _ _).trans (max_le b c)))

/-! ## `hue2rgb` in binary32 -/

variable [Libm b32]

/-- The part of `hue2rgb` after the wrap-around. hsl.rs L102-112 -/
def ramp32 (p q t : F32) : F32 :=
  if t <. lit 1 /. lit 6 then p +. (q -. p) *. lit 6 *. t
  else if t <. lit 1 /. lit 2 then q
  else if t <. lit 2 /. lit 3 then p +. (q -. p) *. (lit 2 /. lit 3 -. t) *. lit 6
  else p

theorem six : NearF (lit 6 : F32) 6 0 6 := by
  have := NearF.lit_rep (B := 6) 6 (by decide +kernel) (by norm_num)
  simpa using this

theorem sixth : (lit 1 /. lit 6 : F32).fin = true ∧ |((lit 1 /. lit 6 : F32).val : ℝ) - 1 / 6| ≤ 1 / 134217728 := by
  have g : (FP.div (FP.ofRat b32 false 1) (FP.ofRat b32 false 6)).fin = true ∧
    |(FP.div (FP.ofRat b32 false 1) (FP.ofRat b32 false 6)).val - 1 / 6| ≤ 1 / 134217728 := by decide +kernel
  refine ⟨g.1, ?_⟩
  have := g.2
  have h : ((|(FP.div (FP.ofRat b32 false 1) (FP.ofRat b32 false 6)).val - 1 / 6| : ℚ) : ℝ) ≤
    ((1 / 134217728 : ℚ) : ℝ) := by exact_mod_cast this
  push_cast at h; exact h

theorem third : (lit 1 /. lit 3 : F32).fin = true ∧ |((lit 1 /. lit 3 : F32).val : ℝ) - 1 / 3| ≤ 1 / 67108864 := by
  have g : (FP.div (FP.ofRat b32 false 1) (FP.ofRat b32 false 3)).fin = true ∧
    |(FP.div (FP.ofRat b32 false 1) (FP.ofRat b32 false 3)).val - 1 / 3| ≤ 1 / 67108864 := by decide +kernel
  refine ⟨g.1, ?_⟩
  have := g.2
  have h : ((|(FP.div (FP.ofRat b32 false 1) (FP.ofRat b32 false 3)).val - 1 / 3| : ℚ) : ℝ) ≤
    ((1 / 67108864 : ℚ) : ℝ) := by exact_mod_cast this
  push_cast at h; exact h

theorem twoThirds : (lit 2 /. lit 3 : F32).fin = true ∧ |((lit 2 /. lit 3 : F32).val : ℝ) - 2 / 3| ≤ 1 / 33554432 := by
  have g : (FP.div (FP.ofRat b32 false 2) (FP.ofRat b32 false 3)).fin = true ∧
    |(FP.div (FP.ofRat b32 false 2) (FP.ofRat b32 false 3)).val - 2 / 3| ≤ 1 / 33554432 := by decide +kernel
  refine ⟨g.1, ?_⟩
  have := g.2
  have h : ((|(FP.div (FP.ofRat b32 false 2) (FP.ofRat b32 false 3)).val - 2 / 3| : ℚ) : ℝ) ≤
    ((1 / 33554432 : ℚ) : ℝ) := by exact_mod_cast this
  push_cast at h; exact h

theorem oneHalf : (lit 1 /. lit 2 : F32).fin = true ∧ ((lit 1 /. lit 2 : F32).val : ℝ) = 1 / 2 := by
  have g : (FP.div (FP.ofRat b32 false 1) (FP.ofRat b32 false 2)).fin = true ∧
    (FP.div (FP.ofRat b32 false 1) (FP.ofRat b32 false 2)).val = 1 / 2 := by decide +kernel
  refine ⟨g.1, ?_⟩
  show ((FP.div (FP.ofRat b32 false 1) (FP.ofRat b32 false 2)).val : ℝ) = 1 / 2
  rw [g.2]; norm_num

theorem lt_real {x y : F32} (hx : x.fin = true) (hy : y.fin = true) :
    (x <. y) = true ↔ (x.val : ℝ) < y.val := by
  show FP.lt x y = true ↔ _
  rw [FP.lt_fin hx hy, decide_eq_true_iff]; exact_mod_cast Iff.rfl

omit [Libm b32] in
theorem mix_close {x : F32} {P Q f g E d : ℝ} (hPQ : P ≤ Q) (hQP : Q - P ≤ 1) (h : Close x (P + (Q - P) * f) E)
    (hfg : |f - g| ≤ d) : Close x (P + (Q - P) * g) (E + d) := by
  refine ⟨h.fin, ?_⟩
  have e : (x.val : ℝ) - (P + (Q - P) * g) = (x.val - (P + (Q - P) * f)) + (Q - P) * (f - g) := by ring
  rw [e]
  refine (abs_add_le _ _).trans (add_le_add h.err ?_)
  rw [abs_mul, abs_of_nonneg (by linarith : 0 ≤ Q - P)]
  calc (Q - P) * |f - g| ≤ 1 * |f - g| := mul_le_mul_of_nonneg_right hQP (abs_nonneg _)
    _ ≤ d := by linarith

/-- Float ramp against the trapezoid, for `p` and `q` within `e` of `P ≤ Q`. -/
theorem ramp_near {p q t : F32} {P Q e : ℝ} (hP : 0 ≤ P) (hPQ : P ≤ Q) (hQ : Q ≤ 1) (he : e ≤ 1 / 524288)
    (hp : NearF p P e 1) (hq : NearF q Q e 1) (ht : t.fin = true) (t0 : 0 ≤ (t.val : ℝ)) (t1 : (t.val : ℝ) ≤ 1) :
    Close (ramp32 p q t) (P + (Q - P) * trap t.val) (4 * e + 18 / 16777216) := by
  have he0 := hp.e_nonneg
  have hQP : |Q - P| ≤ 1 := by rw [abs_le]; constructor <;> linarith
  have hQP1 : Q - P ≤ 1 := by linarith
  have a := hq.sub' 1 (by norm_num) hp hQP (by linarith)
  obtain ⟨f6, e6⟩ := sixth
  obtain ⟨f2, e2⟩ := oneHalf
  obtain ⟨f3, e3⟩ := twoThirds
  have e3' := e3
  rw [abs_le] at e6 e3
  unfold ramp32
  by_cases h1 : (t <. lit 1 /. lit 6) = true
  · rw [if_pos h1]
    rw [lt_real ht f6] at h1
    have nt : NearF t t.val 0 0.17 := NearF.of_fin ht (by rw [abs_of_nonneg t0]; linarith)
    have b := a.mul 3 (by norm_num) six (by linarith)
    have c := b.mul 1 (by norm_num) nt (by linarith)
    have d := hp.add 2 (by norm_num) c (by linarith)
    have d' : Close (p +. (q -. p) *. lit 6 *. t) (P + (Q - P) * (6 * t.val)) (4 * e + 6 / 16777216) :=
      d.is (by ring) (by linarith)
    refine (mix_close hPQ hQP1 d' (d := 6 / 16777216) ?_).mono (by linarith)
    rw [trap_low (by linarith), max_eq_right (le_min zero_le_one (by linarith)), abs_le]
    constructor
    · have := min_le_right 1 (6 * (t.val : ℝ)); linarith
    · rcases min_choice 1 (6 * (t.val : ℝ)) with h | h <;> rw [h] <;> linarith
  · rw [if_neg h1]
    rw [lt_real ht f6, not_lt] at h1
    by_cases h2 : (t <. lit 1 /. lit 2) = true
    · rw [if_pos h2]
      rw [lt_real ht f2, e2] at h2
      have d' : Close q (P + (Q - P) * 1) e := by
        refine hq.is (by ring) le_rfl
      refine (mix_close hPQ hQP1 d' (d := 6 / 16777216) ?_).mono (by linarith)
      have := trap_le t.val
      rw [abs_of_nonneg (by linarith)]
      rcases le_or_gt (t.val : ℝ) (1 / 3) with h | h
      · rw [trap_low h, max_eq_right (le_min zero_le_one (by linarith))]
        rcases min_choice 1 (6 * (t.val : ℝ)) with h | h <;> rw [h] <;> linarith
      · rw [trap_high h.le, min_eq_left (by linarith), max_eq_right (by norm_num)]; norm_num
    · rw [if_neg h2]
      rw [lt_real ht f2, e2, not_lt] at h2
      by_cases h3 : (t <. lit 2 /. lit 3) = true
      · rw [if_pos h3]
        rw [lt_real ht f3] at h3
        have nt : NearF t t.val 0 1 := NearF.of_fin ht (by rw [abs_of_nonneg t0]; exact t1)
        have n3 : NearF (lit 2 /. lit 3 : F32) (2 / 3) (1 / 33554432) 1 := ⟨⟨f3, e3'⟩, by norm_num⟩
        have b := n3.sub' (C := 0.17) 0 (by norm_num) nt (by rw [abs_le]; constructor <;> linarith) (by norm_num)
        have c := a.mul 0 (by norm_num) b (by linarith)
        have c' := c.mul 1 (by norm_num) six (by linarith)
        have d := hp.add 2 (by norm_num) c' (by linarith)
        have d' : Close (p +. (q -. p) *. (lit 2 /. lit 3 -. t) *. lit 6) (P + (Q - P) * (6 * (2 / 3 - t.val)))
            (4 * e + 14 / 16777216) := d.is (by ring) (by linarith)
        refine (mix_close hPQ hQP1 d' (d := 3 / 16777216) ?_).mono (by linarith)
        rw [trap_high (by linarith), min_eq_right (by linarith)]
        rcases max_choice 0 (4 - 6 * (t.val : ℝ)) with h | h
        · have := le_max_right 0 (4 - 6 * (t.val : ℝ))
          rw [h] at this ⊢
          rw [abs_le]; constructor <;> linarith
        · rw [h, abs_le]; constructor <;> linarith
      · rw [if_neg h3]
        rw [lt_real ht f3, not_lt] at h3
        have d' : Close p (P + (Q - P) * 0) e := hp.is (by ring) le_rfl
        refine (mix_close hPQ hQP1 d' (d := 6 / 16777216) ?_).mono (by linarith)
        have := trap_nonneg t.val
        rw [abs_of_nonpos (by linarith)]
        rw [trap_high (by linarith), min_eq_right (by linarith)]
        rcases max_choice 0 (4 - 6 * (t.val : ℝ)) with h | h <;> rw [h] <;> linarith

/-- `hue2rgb` in binary32 against the wheel, for a position within `e'` of `T`. -/
theorem hue2rgb_near {p q t : F32} {P Q T e e' : ℝ} (hP : 0 ≤ P) (hPQ : P ≤ Q) (hQ : Q ≤ 1) (he : e ≤ 1 / 524288)
    (hp : NearF p P e 1) (hq : NearF q Q e 1) (ht : Close t T e') (he' : e' ≤ 1 / 1048576)
    (T0 : -1 / 2 ≤ T) (T1 : T ≤ 3 / 2) :
    Close (Hsl.hue2rgb p q t) (P + (Q - P) * wheel T) (4 * e + 6 * e' + 22 / 16777216) := by
  have he0 := hp.e_nonneg
  obtain ⟨ft, et⟩ := ht
  have l0 : (lit 0 : F32).fin = true ∧ ((lit 0 : F32).val : ℝ) = 0 := by
    have : (lit 0 : F32) = FP.zero false := FP.ofRat_zero false
    rw [this]; exact ⟨rfl, by simp [FP.val]⟩
  have l1 : (lit 1 : F32).fin = true ∧ ((lit 1 : F32).val : ℝ) = 1 := by
    have := FP.lit1
    exact ⟨this.1, by rw [show (lit 1 : F32).val = 1 from this.2]; norm_num⟩
  have one : IsRep b32 1 ∧ (1 : ℚ) < pow2 b32.emax := by
    have := FP.int_finite (f := b32) 1 (by decide)
    simp only [Int.cast_one, abs_one] at this; exact this
  rw [abs_le] at et
  have unit : ∀ {s : Bool} {r : ℚ}, 0 ≤ r → r ≤ 1 → (FP.ofRat b32 s r).fin = true ∧
      0 ≤ ((FP.ofRat b32 s r).val : ℝ) ∧ ((FP.ofRat b32 s r).val : ℝ) ≤ 1 ∧
      |((FP.ofRat b32 s r).val : ℝ) - r| ≤ 1 / 33554432 := by
    intro s r h0 h1
    have v := FP.ofRat_of_le (s := s) one.1 one.2 (q := r) (abs_le.2 ⟨by linarith, h1⟩)
    refine ⟨v.1, ?_, ?_, ?_⟩
    · rw [v.2]; exact_mod_cast rn_nonneg h0
    · rw [v.2]; exact_mod_cast rn_le_rep one.1 h1
    · have := NearF.round (b := s) (q := r) (r := (r : ℝ)) (e := 0) (B := 1) 0 (by norm_num) (by simp)
        (by rw [abs_of_nonneg (by exact_mod_cast h0)]; exact_mod_cast h1) (by norm_num)
      exact this.close.err.trans (by norm_num)
  -- the wrapped position
  have key : ∃ t' : F32, Hsl.hue2rgb p q t = ramp32 p q t' ∧ t'.fin = true ∧ 0 ≤ (t'.val : ℝ) ∧
      (t'.val : ℝ) ≤ 1 ∧ |trap t'.val - wheel t.val| ≤ 3 / 16777216 := by
    by_cases c0 : (t <. lit 0) = true
    · have c0' := c0
      rw [lt_real ft l0.1, l0.2] at c0'
      have tl : (t.val : ℝ) ≥ -1 := by linarith
      have e1 : (t +. lit 1 : F32) = FP.ofRat b32 (t.isNeg && (lit 1 : F32).isNeg) (t.val + 1) := by
        show FP.add t (lit 1) = _
        rw [FP.add_fin ft l1.1, show (lit 1 : F32).val = 1 from FP.lit1.2]
      obtain ⟨u1, u2, u3, u4⟩ := unit (s := (t.isNeg && (lit 1 : F32).isNeg)) (r := t.val + 1)
        (by have : ((-1 : ℚ) : ℝ) ≤ ((t.val : ℚ) : ℝ) := by push_cast; linarith
            have : (-1 : ℚ) ≤ t.val := by exact_mod_cast this
            linarith)
        (by have : ((t.val : ℚ) : ℝ) ≤ ((0 : ℚ) : ℝ) := by push_cast; linarith
            have : t.val ≤ (0 : ℚ) := by exact_mod_cast this
            linarith)
      rw [← e1] at u1 u2 u3 u4
      refine ⟨t +. lit 1, ?_, u1, u2, u3, ?_⟩
      · have c1 : ¬ (lit 1 <. (t +. lit 1)) = true := by
          rw [lt_real l1.1 u1, l1.2, not_lt]; exact u3
        unfold Hsl.hue2rgb ramp32
        simp only [if_pos c0, if_neg c1]
      · rw [wheel_low c0'.le]
        push_cast at u4
        have := trap_lip (t +. lit 1 : F32).val (t.val + 1)
        linarith
    · have c0' := c0
      rw [lt_real ft l0.1, l0.2, not_lt] at c0'
      by_cases c1 : (lit 1 <. t) = true
      · have c1' := c1
        rw [lt_real l1.1 ft, l1.2] at c1'
        have e1 : (t -. lit 1 : F32) = FP.ofRat b32 (t.isNeg && (lit 1 : F32).neg.isNeg) (t.val - 1) := by
          show FP.sub t (lit 1) = _
          rw [FP.sub_fin ft l1.1, show (lit 1 : F32).val = 1 from FP.lit1.2]
        obtain ⟨u1, u2, u3, u4⟩ := unit (s := (t.isNeg && (lit 1 : F32).neg.isNeg)) (r := t.val - 1)
          (by have : ((1 : ℚ) : ℝ) ≤ ((t.val : ℚ) : ℝ) := by push_cast; linarith
              have : (1 : ℚ) ≤ t.val := by exact_mod_cast this
              linarith)
          (by have : ((t.val : ℚ) : ℝ) ≤ ((2 : ℚ) : ℝ) := by push_cast; linarith
              have : t.val ≤ (2 : ℚ) := by exact_mod_cast this
              linarith)
        rw [← e1] at u1 u2 u3 u4
        refine ⟨t -. lit 1, ?_, u1, u2, u3, ?_⟩
        · unfold Hsl.hue2rgb ramp32
          simp only [if_neg c0, if_pos c1]
        · rw [wheel_high c1'.le]
          push_cast at u4
          have := trap_lip (t -. lit 1 : F32).val (t.val - 1)
          linarith
      · have c1' := c1
        rw [lt_real l1.1 ft, l1.2, not_lt] at c1'
        refine ⟨t, ?_, ft, c0', c1', ?_⟩
        · unfold Hsl.hue2rgb ramp32
          simp only [if_neg c0, if_neg c1]
        · rw [wheel_mid c0' c1', sub_self, abs_zero]; norm_num
  obtain ⟨t', h1, h2, h3, h4, h5⟩ := key
  rw [h1]
  have r := ramp_near hP hPQ hQ he hp hq h2 h3 h4
  refine (mix_close hPQ (by linarith) r (d := 3 / 16777216 + 6 * e') ?_).mono (by linarith)
  have w := wheel_lip t.val T
  have : |(t.val : ℝ) - T| ≤ e' := abs_le.2 et
  have := abs_add_le (trap t'.val - wheel t.val) (wheel t.val - wheel T)
  rw [sub_add_sub_cancel] at this
  linarith

end D10
