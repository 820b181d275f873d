import Verif.SpecBlur
import Verif.SpecOps
import Verif.Lemmas.SumFloat

/-! # The Gaussian bell in binary32 -/

namespace D10
open Spec

/-- A finite number with relative error at most `k * 2^-24`. -/
structure RelF (x : F32) (q k : ℝ) : Prop where
  fin : x.fin = true
  err : |(x.val : ℝ) - q| ≤ k / 16777216 * |q|

namespace RelF
variable {x y : F32} {q r k l : ℝ}

theorem mono (h : RelF x q k) (hk : k ≤ l) : RelF x q l :=
  ⟨h.fin, h.err.trans (mul_le_mul_of_nonneg_right (by linarith) (abs_nonneg _))⟩

theorem of_fin (h : x.fin = true) : RelF x x.val 0 := ⟨h, by simp⟩

/-- Rounding a number near `r`. -/
theorem round {b : Bool} {p : ℚ} (hk : k ≤ 1000) (h : |(p : ℝ) - r| ≤ k / 16777216 * |r|)
    (hlo : 1 / 2 ^ 120 ≤ |r|) (hhi : |r| ≤ 2 ^ 120) : RelF (FP.ofRat b32 b p) r (k + 2) := by
  have hp1 : |(p : ℝ)| ≤ 2 * |r| := by
    have := abs_add_le r ((p : ℝ) - r)
    rw [add_sub_cancel] at this
    nlinarith [abs_nonneg r]
  have hp2 : |r| ≤ 2 * |(p : ℝ)| := by
    have := abs_add_le (p : ℝ) (r - p)
    rw [add_sub_cancel, abs_sub_comm r] at this
    nlinarith [abs_nonneg r]
  have hp3 : |(p : ℝ)| ≤ (1 + k / 16777216) * |r| := by
    have := abs_add_le r ((p : ℝ) - r)
    rw [add_sub_cancel] at this
    linarith
  have e1 : pow2 121 = 2 ^ 121 := by norm_num [pow2_eq]
  have hq1 : |p| ≤ pow2 121 := by
    rw [e1]
    have : ((|p| : ℚ) : ℝ) ≤ ((2 ^ 121 : ℚ) : ℝ) := by push_cast; linarith
    exact_mod_cast this
  have e2 : pow2 (-126) = 1 / 2 ^ 126 := by norm_num [pow2_eq]
  have hq2 : pow2 (-126) ≤ |p| := by
    rw [e2]
    have : ((1 / 2 ^ 126 : ℚ) : ℝ) ≤ ((|p| : ℚ) : ℝ) := by
      push_cast
      have : (1 : ℝ) / 2 ^ 126 ≤ 1 / 2 ^ 120 / 2 := by norm_num
      linarith
    exact_mod_cast this
  obtain ⟨a1, a2⟩ := FP.ofRat_small (s := b) (k := 121) (by decide) (by decide) hq1
  refine ⟨a1, ?_⟩
  rw [a2]
  have c : |((rn b32 p : ℚ) : ℝ) - p| ≤ |(p : ℝ)| / 16777216 := by
    have : ((|rn b32 p - p| : ℚ) : ℝ) ≤ ((|p| / 16777216 : ℚ) : ℝ) := by exact_mod_cast rn_rel_normal hq2
    push_cast at this; exact this
  calc |((rn b32 p : ℚ) : ℝ) - r| = |(((rn b32 p : ℚ) : ℝ) - p) + (p - r)| := by ring_nf
    _ ≤ _ := abs_add_le _ _
    _ ≤ |(p : ℝ)| / 16777216 + k / 16777216 * |r| := add_le_add c h
    _ ≤ _ := by nlinarith [abs_nonneg r]

variable [Libm b32]

theorem mul (hx : RelF x q k) (hy : RelF y r l) (hk0 : 0 ≤ k) (_hl0 : 0 ≤ l) (hk : k ≤ 400) (hl : l ≤ 400)
    (hlo : 1 / 2 ^ 120 ≤ |q * r|) (hhi : |q * r| ≤ 2 ^ 120) : RelF (x *. y) (q * r) (k + l + 3) := by
  show RelF (FP.mul x y) _ _
  rw [FP.mul_fin hx.fin hy.fin]
  have key : |((x.val * y.val : ℚ) : ℝ) - q * r| ≤ (k + l + 1) / 16777216 * |q * r| := by
    push_cast
    have e : (x.val : ℝ) * y.val - q * r =
        q * (y.val - r) + r * (x.val - q) + (x.val - q) * (y.val - r) := by ring
    rw [e, abs_mul]
    have h1 : |q * ((y.val : ℝ) - r)| ≤ l / 16777216 * (|q| * |r|) := by
      rw [abs_mul]; nlinarith [hy.err, abs_nonneg q]
    have h2 : |r * ((x.val : ℝ) - q)| ≤ k / 16777216 * (|q| * |r|) := by
      rw [abs_mul]; nlinarith [hx.err, abs_nonneg r]
    have h3 : |((x.val : ℝ) - q) * (y.val - r)| ≤ (k / 16777216 * |q|) * (l / 16777216 * |r|) := by
      rw [abs_mul]
      exact mul_le_mul hx.err hy.err (abs_nonneg _) (by positivity)
    have h4 : (k / 16777216 * |q|) * (l / 16777216 * |r|) ≤ 1 / 16777216 * (|q| * |r|) := by
      have : k * l ≤ 16777216 := by nlinarith
      calc _ = k * l / 16777216 * (1 / 16777216 * (|q| * |r|)) := by ring
        _ ≤ 1 * (1 / 16777216 * (|q| * |r|)) := by
            apply mul_le_mul_of_nonneg_right _ (by positivity)
            rw [div_le_one (by norm_num)]; exact this
        _ = _ := one_mul _
    refine (abs_add_le _ _).trans ((add_le_add (abs_add_le _ _) le_rfl).trans ?_)
    calc _ ≤ l / 16777216 * (|q| * |r|) + k / 16777216 * (|q| * |r|) + 1 / 16777216 * (|q| * |r|) := by
          linarith
      _ = _ := by ring
  exact (round (by linarith) key hlo hhi).mono (by linarith)

theorem div (hx : RelF x q k) (hy : RelF y r l) (hk0 : 0 ≤ k) (hl0 : 0 ≤ l) (hk : k ≤ 400) (hl : l ≤ 400)
    (hr : r ≠ 0) (hlo : 1 / 2 ^ 120 ≤ |q / r|) (hhi : |q / r| ≤ 2 ^ 120) :
    RelF (x /. y) (q / r) (k + l + 3) := by
  have hr0 : 0 < |r| := abs_pos.2 hr
  have hyr : |r| * (1 - l / 16777216) ≤ |(y.val : ℝ)| := by
    have := abs_add_le (y.val : ℝ) (r - y.val)
    rw [add_sub_cancel, abs_sub_comm r] at this
    nlinarith [hy.err]
  have hl1 : (9 / 10 : ℝ) ≤ 1 - l / 16777216 := by linarith
  have hy0 : 0 < |(y.val : ℝ)| := by nlinarith
  have hyv : (y.val : ℝ) ≠ 0 := abs_pos.1 hy0
  have hyq : y.val ≠ 0 := by exact_mod_cast hyv
  show RelF (FP.div x y) _ _
  rw [FP.div_fin hx.fin hy.fin hyq]
  have key : |((x.val / y.val : ℚ) : ℝ) - q / r| ≤ (k + l + 1) / 16777216 * |q / r| := by
    push_cast
    have e : (x.val : ℝ) / y.val - q / r = ((x.val - q) * r + q * (r - y.val)) / (r * y.val) := by
      field_simp; ring
    rw [e, abs_div, abs_mul r, abs_div q, div_le_iff₀ (by positivity)]
    have h1 : |((x.val : ℝ) - q) * r| ≤ k / 16777216 * |q| * |r| := by
      rw [abs_mul]; exact mul_le_mul_of_nonneg_right hx.err hr0.le
    have h2 : |q * (r - (y.val : ℝ))| ≤ l / 16777216 * |q| * |r| := by
      rw [abs_mul, abs_sub_comm]; nlinarith [hy.err, abs_nonneg q]
    have e2 : (k + l + 1) / 16777216 * (|q| / |r|) * (|r| * |(y.val : ℝ)|) =
        (k + l + 1) / 16777216 * |q| * |(y.val : ℝ)| := by field_simp
    rw [e2]
    refine (abs_add_le _ _).trans ?_
    have h3 : (k + l + 1) / 16777216 * |q| * (|r| * (1 - l / 16777216)) ≤
        (k + l + 1) / 16777216 * |q| * |(y.val : ℝ)| := by gcongr
    refine le_trans ?_ h3
    have h4 : (k + l) ≤ (k + l + 1) * (1 - l / 16777216) := by nlinarith
    calc _ ≤ (k + l) * (1 / 16777216 * |q| * |r|) := by linarith
      _ ≤ (k + l + 1) * (1 - l / 16777216) * (1 / 16777216 * |q| * |r|) := by gcongr
      _ = _ := by ring
  exact (round (by linarith) key hlo hhi).mono (by linarith)

end RelF

/-! ## The exponential -/

theorem exp_diff {x y : ℝ} (h : x ≤ y) : |Real.exp (-x) - Real.exp (-y)| ≤ (y - x) * Real.exp (-x) := by
  have h1 : Real.exp (-y) ≤ Real.exp (-x) := Real.exp_le_exp.2 (by linarith)
  rw [abs_of_nonneg (by linarith)]
  have h2 : Real.exp (-y) = Real.exp (-x) * Real.exp (-(y - x)) := by rw [← Real.exp_add]; ring_nf
  have h3 := Real.add_one_le_exp (-(y - x))
  have h4 := Real.exp_pos (-x)
  rw [h2]
  nlinarith

/-- A relative error of the argument. -/
theorem exp_close {A B ε : ℝ} (hA : 0 ≤ A) (hε0 : 0 ≤ ε) (hε : ε ≤ 1 / 2) (h : |B - A| ≤ ε * A) :
    |Real.exp (-B) - Real.exp (-A)| ≤ ε := by
  have key : ∀ L, A / 2 ≤ L → ε * A * Real.exp (-L) ≤ ε := by
    intro L hL
    have h1 : Real.exp (-L) ≤ Real.exp (-(A / 2)) := Real.exp_le_exp.2 (by linarith)
    have h2 := Real.add_one_le_exp (A / 2)
    have h3 : A * Real.exp (-(A / 2)) ≤ 1 := by
      have h5 := Real.add_one_le_exp (A / 2 - 1)
      have e1 : Real.exp (A / 2) = Real.exp 1 * Real.exp (A / 2 - 1) := by
        rw [← Real.exp_add]; ring_nf
      have h6 : (2 : ℝ) ≤ Real.exp 1 := by have := Real.add_one_le_exp (1 : ℝ); linarith
      have h7 : A ≤ Real.exp (A / 2) := by rw [e1]; nlinarith
      rw [Real.exp_neg]
      rw [mul_inv_le_iff₀ (Real.exp_pos _), one_mul]
      exact h7
    calc ε * A * Real.exp (-L) ≤ ε * A * Real.exp (-(A / 2)) := by gcongr
      _ = ε * (A * Real.exp (-(A / 2))) := by ring
      _ ≤ ε * 1 := by gcongr
      _ = ε := mul_one _
  rw [abs_le] at h
  rcases le_total A B with c | c
  · rw [abs_sub_comm]
    refine (exp_diff c).trans ((mul_le_mul_of_nonneg_right ?_ (Real.exp_pos _).le).trans (key A (by linarith)))
    linarith
  · refine (exp_diff c).trans ((mul_le_mul_of_nonneg_right ?_ (Real.exp_pos _).le).trans (key B ?_))
    · linarith
    · nlinarith

/-! ## Integers -/

section
variable [Libm b32]

theorem int_lit (z : Int) (hz : |z| ≤ 2048) :
    (Scalar.lit (z : ℚ) : F32).fin = true ∧ (Scalar.lit (z : ℚ) : F32).val = z :=
  FP.lit32 z (by norm_num; omega)

/-- The squared distance is computed without error. -/
theorem dist_exact (dx dy : Int) (hx : |dx| ≤ 2048) (hy : |dy| ≤ 2048) :
    let d : F32 := (Scalar.lit (dx : ℚ) : F32) *. Scalar.lit (dx : ℚ) +.
      (Scalar.lit (dy : ℚ) : F32) *. Scalar.lit (dy : ℚ)
    d.fin = true ∧ d.val = ((dx * dx + dy * dy : Int) : ℚ) := by
  have sq : ∀ z : Int, |z| ≤ 2048 → 0 ≤ z * z ∧ z * z ≤ 4194304 := fun z hz => by
    rw [abs_le] at hz
    constructor <;> nlinarith
  have prod : ∀ z : Int, |z| ≤ 2048 →
      ((Scalar.lit (z : ℚ) : F32) *. Scalar.lit (z : ℚ)).fin = true ∧
      ((Scalar.lit (z : ℚ) : F32) *. Scalar.lit (z : ℚ)).val = ((z * z : Int) : ℚ) := by
    intro z hz
    obtain ⟨h1, h2⟩ := int_lit z hz
    have e : ((Scalar.lit (z : ℚ) : F32) *. Scalar.lit (z : ℚ)) =
      FP.mul (Scalar.lit (z : ℚ) : F32) (Scalar.lit (z : ℚ)) := rfl
    rw [e, FP.mul_fin h1 h1, h2]
    have : ((z : ℚ) * z) = ((z * z : Int) : ℚ) := by push_cast; ring
    rw [this]
    obtain ⟨a, b⟩ := sq z hz
    obtain ⟨r1, r2⟩ := FP.int_finite (f := b32) (z * z) (by rw [abs_of_nonneg a]; norm_num; omega)
    exact FP.ofRat_rep r1 r2
  intro d
  obtain ⟨a1, a2⟩ := prod dx hx
  obtain ⟨b1, b2⟩ := prod dy hy
  have e : d = FP.add ((Scalar.lit (dx : ℚ) : F32) *. Scalar.lit (dx : ℚ))
    ((Scalar.lit (dy : ℚ) : F32) *. Scalar.lit (dy : ℚ)) := rfl
  rw [e, FP.add_fin a1 b1, a2, b2]
  have e2 : (((dx * dx : Int) : ℚ) + ((dy * dy : Int) : ℚ)) = ((dx * dx + dy * dy : Int) : ℚ) := by
    push_cast; ring
  rw [e2]
  obtain ⟨c1, c2⟩ := sq dx hx
  obtain ⟨d1, d2⟩ := sq dy hy
  obtain ⟨r1, r2⟩ := FP.int_finite (f := b32) (dx * dx + dy * dy)
    (by rw [abs_of_nonneg (by linarith)]; norm_num; linarith)
  exact FP.ofRat_rep r1 r2

omit [Libm b32] in
theorem RelF.pos {x : F32} {q k : ℝ} (h : RelF x q k) (hq : 0 < q) (hk : k ≤ 400) :
    q / 2 ≤ x.val ∧ (x.val : ℝ) ≤ 2 * q := by
  have := h.err
  rw [abs_of_pos hq, abs_le] at this
  constructor <;> nlinarith

omit [Libm b32] in
theorem Spec.SigmaOK.sq {σ : F32} (h : SigmaOK σ) :
    1 / 2 ^ 79 ≤ 2 * (σ.val : ℝ) * σ.val ∧ 2 * (σ.val : ℝ) * σ.val ≤ 2 ^ 81 := by
  have h1 := h.lo
  have h2 := h.hi
  constructor
  · calc (1 : ℝ) / 2 ^ 79 = 2 * (1 / 2 ^ 40) * (1 / 2 ^ 40) := by norm_num
      _ ≤ _ := by gcongr
  · calc 2 * (σ.val : ℝ) * σ.val ≤ 2 * 2 ^ 40 * 2 ^ 40 := by
          have : (0 : ℝ) ≤ σ.val := le_trans (by positivity) h1
          gcongr
      _ = _ := by norm_num

theorem two_sigma_sq {σ : F32} (h : SigmaOK σ) :
    RelF ((Scalar.lit 2 : F32) *. σ *. σ) (2 * (σ.val : ℝ) * σ.val) 6 := by
  have l2 : (Scalar.lit 2 : F32).fin = true ∧ (Scalar.lit 2 : F32).val = 2 := by
    have h : (FP.ofRat b32 false 2).fin = true ∧ (FP.ofRat b32 false 2).val = 2 := by
      have := FP.lit32 2 (by norm_num); simpa using this
    exact h
  have r2 : RelF (Scalar.lit 2 : F32) 2 0 := by
    have := RelF.of_fin l2.1
    rw [l2.2] at this
    simpa using this
  have h1 := h.lo
  have h2 := h.hi
  have hp : (0 : ℝ) < σ.val := lt_of_lt_of_le (by positivity) h1
  have a := RelF.mul r2 (RelF.of_fin h.fin) le_rfl le_rfl (by norm_num) (by norm_num)
    (by rw [abs_of_pos (by positivity)]
        calc (1 : ℝ) / 2 ^ 120 ≤ 2 * (1 / 2 ^ 40) := by norm_num
          _ ≤ _ := by gcongr)
    (by rw [abs_of_pos (by positivity)]
        calc 2 * (σ.val : ℝ) ≤ 2 * 2 ^ 40 := by gcongr
          _ ≤ _ := by norm_num)
  obtain ⟨s1, s2⟩ := h.sq
  have b := RelF.mul a (RelF.of_fin h.fin) (by norm_num) le_rfl (by norm_num) (by norm_num)
    (by rw [abs_of_pos (by positivity)]; exact le_trans (by norm_num) s1)
    (by rw [abs_of_pos (by positivity)]; exact le_trans s2 (by norm_num))
  exact b.mono (by norm_num)

/-- The argument of the exponential. -/
theorem bell_arg (hs : SqrtWithin) {σ : F32} (h : SigmaOK σ) (dx dy : Int) (hx : |dx| ≤ 2048)
    (hy : |dy| ≤ 2048) :
    let r : F32 := Scalar.sqrt ((Scalar.lit (dx : ℚ) : F32) *. Scalar.lit (dx : ℚ) +.
      (Scalar.lit (dy : ℚ) : F32) *. Scalar.lit (dy : ℚ))
    let a : F32 := Scalar.neg (r *. r) /. ((Scalar.lit 2 : F32) *. σ *. σ)
    let A : ℝ := ((dx : ℝ) ^ 2 + (dy : ℝ) ^ 2) / (2 * (σ.val : ℝ) ^ 2)
    a.fin = true ∧ a.val ≤ 0 ∧ 0 ≤ A ∧ |(-(a.val : ℝ)) - A| ≤ 16 / 16777216 * A := by
  intro r a A
  obtain ⟨d1, d2⟩ := dist_exact dx dy hx hy
  have sr := two_sigma_sq h
  obtain ⟨s1, s2⟩ := h.sq
  have hp : (0 : ℝ) < 2 * (σ.val : ℝ) * σ.val := lt_of_lt_of_le (by positivity) s1
  have hA : A = ((dx * dx + dy * dy : Int) : ℝ) / (2 * (σ.val : ℝ) * σ.val) := by
    show _ / _ = _
    push_cast; congr 1 <;> ring
  have hDn : 0 ≤ dx * dx + dy * dy := by nlinarith [mul_self_nonneg dx, mul_self_nonneg dy]
  have hA0 : 0 ≤ A := by
    rw [hA]
    have : (0 : ℝ) ≤ ((dx * dx + dy * dy : Int) : ℝ) := by exact_mod_cast hDn
    positivity
  have hq := hs _ d1 (by rw [d2]; exact_mod_cast hDn)
  rw [d2] at hq
  have hspos := sr.pos hp (by norm_num)
  have hsv : ((Scalar.lit 2 : F32) *. σ *. σ).val ≠ 0 := by
    intro hz
    rw [hz] at hspos
    have := hspos.1
    push_cast at this
    linarith
  rcases eq_or_lt_of_le hDn with hz | hpos
  · -- at the centre
    rw [← hz] at hq hA
    have h0 : r.fin = true ∧ r.val = 0 := by
      refine ⟨hq.1.fin, ?_⟩
      have := hq.1.err
      norm_num at this
      exact this
    have e1 : (r *. r) = FP.mul r r := rfl
    have m : (r *. r).fin = true ∧ (r *. r).val = 0 := by
      rw [e1, FP.mul_fin h0.1 h0.1, h0.2, mul_zero, FP.ofRat_zero]
      exact ⟨rfl, rfl⟩
    have e2 : Scalar.neg (r *. r) = FP.neg (r *. r) := rfl
    have ng := FP.neg_fin m.1
    rw [m.2, neg_zero] at ng
    have e3 : a = FP.div (FP.neg (r *. r)) ((Scalar.lit 2 : F32) *. σ *. σ) := rfl
    have av : a.fin = true ∧ a.val = 0 := by
      rw [e3, FP.div_fin ng.1 sr.fin hsv, ng.2, zero_div, FP.ofRat_zero]
      exact ⟨rfl, rfl⟩
    refine ⟨av.1, av.2.le, hA0, ?_⟩
    rw [av.2, hA]
    simp
  · have hD1 : (1 : ℝ) ≤ ((dx * dx + dy * dy : Int) : ℝ) := by exact_mod_cast hpos
    have hDu : ((dx * dx + dy * dy : Int) : ℝ) ≤ 8388608 := by
      rw [abs_le] at hx hy
      have : dx * dx + dy * dy ≤ 8388608 := by nlinarith
      exact_mod_cast this
    have ec : ((((dx * dx + dy * dy : Int) : ℚ)) : ℝ) = ((dx * dx + dy * dy : Int) : ℝ) := by push_cast; ring
    rw [ec] at hq
    generalize ((dx * dx + dy * dy : Int) : ℝ) = D at *
    have hsq : Real.sqrt D * Real.sqrt D = D := Real.mul_self_sqrt (by linarith)
    have rr : RelF r (Real.sqrt D) 2 :=
      ⟨hq.1.fin, by
        rw [abs_of_nonneg (Real.sqrt_nonneg _)]
        exact hq.1.err.trans (le_of_eq (by ring))⟩
    have r2 := RelF.mul rr rr (by norm_num) (by norm_num) (by norm_num) (by norm_num)
      (by rw [hsq, abs_of_pos (by linarith)]; exact le_trans (by norm_num) hD1)
      (by rw [hsq, abs_of_pos (by linarith)]; exact le_trans hDu (by norm_num))
    rw [hsq] at r2
    have ng := FP.neg_fin r2.fin
    have rn : RelF (Scalar.neg (r *. r)) (-D) 7 := by
      refine ⟨ng.1, ?_⟩
      have e2 : Scalar.neg (r *. r) = FP.neg (r *. r) := rfl
      rw [e2, ng.2, abs_neg]
      push_cast
      have e3 : -((r *. r).val : ℝ) - -D = -(((r *. r).val : ℝ) - D) := by ring
      rw [e3, abs_neg]
      exact r2.err.trans (by gcongr; norm_num)
    have hab : |(-D) / (2 * (σ.val : ℝ) * σ.val)| = A := by
      rw [abs_div, abs_neg, abs_of_pos hp, abs_of_pos (by linarith), hA]
    have ra := RelF.div rn sr (by norm_num) (by norm_num) (by norm_num) (by norm_num) hp.ne'
      (by
        rw [hab, hA, le_div_iff₀ hp]
        calc (1 : ℝ) / 2 ^ 120 * (2 * (σ.val : ℝ) * σ.val) ≤ 1 / 2 ^ 120 * 2 ^ 81 := by gcongr
          _ ≤ 1 := by norm_num
          _ ≤ D := hD1)
      (by
        rw [hab, hA, div_le_iff₀ hp]
        calc D ≤ 2 ^ 120 * (1 / 2 ^ 79) := hDu.trans (by norm_num)
          _ ≤ _ := by gcongr)
    have err := ra.err
    rw [hab] at err
    have e4 : -(D) / (2 * (σ.val : ℝ) * σ.val) = -A := by rw [hA, neg_div]
    rw [e4] at err
    have hle : |(-(a.val : ℝ)) - A| ≤ 16 / 16777216 * A := by
      have e5 : (-(a.val : ℝ)) - A = -((a.val : ℝ) - -A) := by ring
      rw [e5, abs_neg]
      exact err.trans (by gcongr; norm_num)
    refine ⟨ra.fin, ?_, hA0, hle⟩
    rw [abs_le] at hle
    have : (a.val : ℝ) ≤ 0 := by nlinarith
    exact_mod_cast this

/-- The divisor of the bell. -/
theorem bell_div {σ : F32} (h : SigmaOK σ) :
    let P : F32 := (Scalar.lit 3.14159265358979323846264338327950288 : F32) *. ((Scalar.lit 2 : F32) *. σ *. σ)
    P.fin = true ∧ 1 / 2 ^ 79 ≤ (P.val : ℝ) ∧ (P.val : ℝ) ≤ 2 ^ 84 := by
  intro P
  obtain ⟨s1, s2⟩ := h.sq
  have hp : (0 : ℝ) < 2 * (σ.val : ℝ) * σ.val := lt_of_lt_of_le (by positivity) s1
  have pr : RelF (Scalar.lit 3.14159265358979323846264338327950288 : F32)
      ((3.14159265358979323846264338327950288 : ℚ) : ℝ) 2 :=
    (RelF.round (b := false) (k := 0) (p := 3.14159265358979323846264338327950288) (by norm_num)
      (by simp) (by norm_num [abs_of_pos]) (by norm_num [abs_of_pos])).mono (by norm_num)
  have b := RelF.mul pr (two_sigma_sq h) (by norm_num) (by norm_num) (by norm_num) (by norm_num)
    (by
      rw [abs_of_pos (by positivity)]
      calc (1 : ℝ) / 2 ^ 120 ≤ 1 * (1 / 2 ^ 79) := by norm_num
        _ ≤ _ := by
          apply mul_le_mul _ s1 (by positivity) (by positivity)
          norm_num)
    (by
      rw [abs_of_pos (by positivity)]
      calc _ ≤ (4 : ℝ) * 2 ^ 81 := by
            apply mul_le_mul _ s2 hp.le (by positivity)
            norm_num
        _ ≤ _ := by norm_num)
  obtain ⟨c1, c2⟩ := b.pos (by positivity) (by norm_num)
  refine ⟨b.fin, ?_, ?_⟩
  · refine le_trans ?_ c1
    rw [le_div_iff₀ (by norm_num)]
    calc (1 : ℝ) / 2 ^ 79 * 2 = 2 * (1 / 2 ^ 79) := by ring
      _ ≤ _ := by
        apply mul_le_mul _ s1 (by positivity) (by positivity)
        norm_num
  · refine le_trans c2 ?_
    calc _ ≤ (2 : ℝ) * (4 * 2 ^ 81) := by
          apply mul_le_mul_of_nonneg_left _ (by norm_num)
          apply mul_le_mul _ s2 hp.le (by positivity)
          norm_num
      _ = _ := by norm_num

/-- One value of the bell, scaled by the divisor. -/
theorem bell_near {δ : ℝ} (he : ExpWithin δ) (hs : SqrtWithin) {σ : F32} (h : SigmaOK σ) (dx dy : Int)
    (hx : |dx| ≤ 2048) (hy : |dy| ≤ 2048) :
    let P : F32 := (Scalar.lit 3.14159265358979323846264338327950288 : F32) *. ((Scalar.lit 2 : F32) *. σ *. σ)
    (bell σ dx dy).fin = true ∧ 0 ≤ (bell σ dx dy).val ∧ ((bell σ dx dy).val : ℝ) ≤ 2 ^ 80 ∧
    |((bell σ dx dy).val : ℝ) * P.val -
      Real.exp (-((dx : ℝ) ^ 2 + (dy : ℝ) ^ 2) / (2 * (σ.val : ℝ) ^ 2))| ≤ δ + 18 / 16777216 := by
  intro P
  obtain ⟨p1, p2, p3⟩ := bell_div h
  obtain ⟨a1, a2, a3, a4⟩ := bell_arg hs h dx dy hx hy
  unfold bell
  simp only
  generalize Scalar.neg (Scalar.sqrt ((Scalar.lit (dx : ℚ) : F32) *. Scalar.lit (dx : ℚ) +.
      (Scalar.lit (dy : ℚ) : F32) *. Scalar.lit (dy : ℚ)) *. Scalar.sqrt ((Scalar.lit (dx : ℚ) : F32) *. Scalar.lit (dx : ℚ) +.
      (Scalar.lit (dy : ℚ) : F32) *. Scalar.lit (dy : ℚ))) /. ((Scalar.lit 2 : F32) *. σ *. σ) = a at *
  have hPe : ((Scalar.lit 3.14159265358979323846264338327950288 : F32) *. ((Scalar.lit 2 : F32) *. σ *. σ)) = P := rfl
  rw [hPe] at p1 p2 p3 ⊢
  clear_value P
  obtain ⟨e1, e2, e3⟩ := he a a1 a2
  have hP : (0 : ℝ) < P.val := lt_of_lt_of_le (by positivity) p2
  have hPq : (0 : ℚ) < P.val := by exact_mod_cast hP
  have e2' : (0 : ℝ) ≤ (Scalar.exp a).val := by exact_mod_cast e2
  have e3' : ((Scalar.exp a).val : ℝ) ≤ 1 := by exact_mod_cast e3
  have hq0 : 0 ≤ (Scalar.exp a).val / P.val := div_nonneg e2 hPq.le
  have hqr : (((Scalar.exp a).val / P.val : ℚ) : ℝ) ≤ 2 ^ 79 := by
    push_cast
    rw [div_le_iff₀ hP]
    calc ((Scalar.exp a).val : ℝ) ≤ 1 := e3'
      _ = 2 ^ 79 * (1 / 2 ^ 79) := by norm_num
      _ ≤ _ := by gcongr
  have hb : |(Scalar.exp a).val / P.val| ≤ pow2 79 := by
    rw [abs_of_nonneg hq0]
    have : pow2 79 = 2 ^ 79 := by norm_num [pow2_eq]
    rw [this]
    exact_mod_cast hqr
  have ed : (Scalar.exp a /. P) = FP.div (Scalar.exp a) P := rfl
  rw [ed, FP.div_fin e1.fin p1 hPq.ne']
  obtain ⟨f1, f2⟩ := FP.ofRat_small (s := (Scalar.exp a).isNeg ^^ P.isNeg) (k := 79) (by decide) (by decide) hb
  rw [f2]
  have c := rn_rel_tiny ((Scalar.exp a).val / P.val)
  have cu := rn_le_pow2 (f := b32) (k := 79) (by decide) hb
  rw [abs_of_nonneg hq0] at c
  have c' : |((rn b32 ((Scalar.exp a).val / P.val) : ℚ) : ℝ) - ((Scalar.exp a).val : ℝ) / P.val| ≤
      ((Scalar.exp a).val : ℝ) / P.val / 16777216 + 1 / 2 ^ 150 := by
    have : ((|rn b32 ((Scalar.exp a).val / P.val) - (Scalar.exp a).val / P.val| : ℚ) : ℝ) ≤
        (((Scalar.exp a).val / P.val / 16777216 + pow2 (-150) : ℚ) : ℝ) := by exact_mod_cast c
    have ep : pow2 (-150) = 1 / 2 ^ 150 := by norm_num [pow2_eq]
    rw [ep] at this
    push_cast at this
    exact this
  refine ⟨f1, rn_nonneg hq0, ?_, ?_⟩
  · rw [abs_of_nonneg (rn_nonneg hq0)] at cu
    have ep : pow2 79 = 2 ^ 79 := by norm_num [pow2_eq]
    rw [ep] at cu
    have : ((rn b32 ((Scalar.exp a).val / P.val) : ℚ) : ℝ) ≤ ((2 ^ 79 : ℚ) : ℝ) := by exact_mod_cast cu
    push_cast at this
    exact this.trans (by norm_num)
  · have hx := exp_close a3 (by norm_num) (by norm_num) a4
    rw [neg_neg] at hx
    have he1 := e1.err
    have hr : |((rn b32 ((Scalar.exp a).val / P.val) : ℚ) : ℝ) * P.val - (Scalar.exp a).val| ≤ 2 / 16777216 := by
      have e : ((rn b32 ((Scalar.exp a).val / P.val) : ℚ) : ℝ) * P.val - (Scalar.exp a).val =
          (((rn b32 ((Scalar.exp a).val / P.val) : ℚ) : ℝ) - ((Scalar.exp a).val : ℝ) / P.val) * P.val := by
        field_simp
      rw [e, abs_mul, abs_of_pos hP]
      calc _ ≤ (((Scalar.exp a).val : ℝ) / P.val / 16777216 + 1 / 2 ^ 150) * P.val := by gcongr
        _ = ((Scalar.exp a).val : ℝ) / 16777216 + 1 / 2 ^ 150 * P.val := by field_simp
        _ ≤ 1 / 16777216 + 1 / 2 ^ 150 * 2 ^ 84 := by gcongr
        _ ≤ _ := by norm_num
    have en : -((dx : ℝ) ^ 2 + (dy : ℝ) ^ 2) / (2 * (σ.val : ℝ) ^ 2) =
        -(((dx : ℝ) ^ 2 + (dy : ℝ) ^ 2) / (2 * (σ.val : ℝ) ^ 2)) := neg_div _ _
    rw [en]
    rw [abs_le] at *
    constructor <;> linarith

end

end D10
