import Verif.Lemmas.Ieee
import Verif.Float.Bits

/-!
# C92: the arithmetic of the model is that of IEEE 754

`f32` and `f64` of the model against the definition of the standard in `Verif/SpecIeee.lean`.
-/

namespace D10
open Spec
open Scalar (isNan lit)

section
variable {f : Fmt}

/-- The two formats: 24 bits of significand and least number 2^-149 for `f32`, 53 bits and 2^-1074
for `f64`, with the largest finite numbers of the standard. -/
theorem C92_formats :
    b32.prec = 24 ∧ b32.emin = -149 ∧ largest b32 = 340282346638528859811704183484516925440 ∧
    b64.prec = 53 ∧ b64.emin = -1074 ∧ largest b64 = (2 ^ 53 - 1) * 2 ^ 971 := by
  refine ⟨rfl, rfl, ?_, rfl, rfl, ?_⟩
  · unfold largest; norm_num
  · unfold largest; norm_num

/-- The float of a number other than 0 is the number rounded to nearest, ties to even, and the
specification leaves no other result. -/
theorem C92_rounding (hp : 2 ≤ f.prec) (s : Bool) (q : ℚ) (hq : q ≠ 0) (x : FP f) :
    RoundsTo q x ↔ x = FP.ofRat f s q := by
  have hfin : ∀ h : ¬ TooLarge f q, (FP.ofRat f s q).fin = true ∧ Nearest f q (FP.ofRat f s q).val ∧
      (FP.ofRat f s q).isNeg = decide (q < 0) := by
    intro h
    have hv := FP.ofRat_val (s := s) ((rn_overflow q).2 h)
    refine ⟨hv.1, by rw [hv.2]; exact rn_nearest hp q, ?_⟩
    unfold FP.ofRat
    split
    · rfl
    · rename_i h0
      rw [dif_pos ((rn_overflow q).2 h)]
      simp only [FP.isNeg]
      exact decide_eq_decide.2 (rn_neg_iff h0)
  have hinf : TooLarge f q → FP.ofRat f s q = .inf (decide (q < 0)) := by
    intro h
    have h1 : ¬ |rn f q| < pow2 f.emax := fun hc => (rn_overflow q).1 hc h
    have h0 : rn f q ≠ 0 := by intro h0; rw [h0, abs_zero] at h1; exact h1 (pow2_pos _)
    unfold FP.ofRat
    rw [dif_neg h0, dif_neg h1]
  constructor
  · intro hx
    by_cases h : TooLarge f q
    · rw [hx.infinite h, hinf h]
    · obtain ⟨f1, n1, s1⟩ := hx.finite h
      obtain ⟨f2, n2, s2⟩ := hfin h
      have hv := Nearest.unique n1 n2
      cases x with
      | nan => cases f1
      | inf _ => cases f1
      | zero a =>
        generalize FP.ofRat f s q = y at *
        cases y with
        | nan => cases f2
        | inf _ => cases f2
        | zero b => simp only [FP.isNeg] at s1 s2; rw [s1, s2]
        | num r hr => exact absurd hv.symm hr.1
      | num r hr =>
        generalize FP.ofRat f s q = y at *
        cases y with
        | nan => cases f2
        | inf _ => cases f2
        | zero b => exact absurd hv hr.1
        | num r' hr' => simp only [FP.val] at hv; subst hv; rfl
  · rintro rfl
    exact ⟨hinf, hfin⟩

-- 2^24 + 1 is half way between two floats: the even one is taken. 1/10 is not a float.
example : RoundsTo 16777217 (FP.ofRat b32 false 16777216) :=
  (C92_rounding (by norm_num) false _ (by norm_num) _).2 (by decide +kernel)
example : ∃ x : F32, RoundsTo (1 / 10) x ∧ x.val = 13421773 / 134217728 :=
  ⟨FP.ofRat b32 false (1 / 10), (C92_rounding (by norm_num) false _ (by norm_num) _).2 rfl,
    by decide +kernel⟩
-- 2^128 - 2^103 is the first number that is too large.
example : RoundsTo (2 ^ 128 - 2 ^ 103) (.inf false : F32) ∧
    (FP.ofRat b32 false (2 ^ 128 - 2 ^ 103 - 1)).val = 2 ^ 128 - 2 ^ 104 :=
  ⟨(C92_rounding (by norm_num) false _ (by norm_num) _).2 (by decide +kernel), by decide +kernel⟩

/-- A literal, and an integer converted to a float, is the number rounded. -/
theorem C92_literal [Libm f] (hp : 2 ≤ f.prec) (q : ℚ) (hq : q ≠ 0) :
    RoundsTo q (lit q : FP f) ∧ (lit 0 : FP f) = .zero false :=
  ⟨(C92_rounding hp false q hq _).2 rfl, FP.ofRat_zero false⟩

/-- Addition: the exact sum rounded; a sum of 0 is -0 only for two negative zeros; with infinities
the extended sum, NaN for infinities of different signs. -/
theorem C92_add [Libm f] (hp : 2 ≤ f.prec) (x y : FP f) :
    (x.fin = true → y.fin = true → x.val + y.val ≠ 0 → RoundsTo (x.val + y.val) (x +. y)) ∧
    (x.fin = true → y.fin = true → x.val + y.val = 0 → (x +. y) = .zero (x.isNeg && y.isNeg)) ∧
    (¬ (x.fin = true ∧ y.fin = true) → ext (x +. y) =
      match ext x, ext y with
      | some a, some b => if a = ⊤ ∧ b = ⊥ ∨ a = ⊥ ∧ b = ⊤ then none else some (a + b)
      | _, _ => none) := by
  refine ⟨fun hx hy h => ?_, fun hx hy h => ?_, fun h => ?_⟩
  · exact (C92_rounding hp _ _ h _).2 (FP.add_fin hx hy)
  · show FP.add x y = _
    rw [FP.add_fin hx hy, h, FP.ofRat_zero]
  · show ext (FP.add x y) = _
    cases x with
    | nan => simp [FP.add, ext]
    | inf a =>
      cases y with
      | nan => simp [FP.add, ext]
      | inf b => cases a <;> cases b <;> simp [FP.add, ext]
      | zero b => cases a <;> simp [FP.add, ext]
      | num q hq => cases a <;> simp [FP.add, ext]
    | zero a =>
      cases y with
      | nan => simp [FP.add, ext]
      | inf b => cases b <;> simp [FP.add, ext]
      | zero b => simp [FP.fin] at h
      | num q hq => simp [FP.fin] at h
    | num q hq =>
      cases y with
      | nan => simp [FP.add, ext]
      | inf b => cases b <;> simp [FP.add, ext]
      | zero b => simp [FP.fin] at h
      | num q hq => simp [FP.fin] at h

/-- Subtraction adds the number with the other sign; changing the sign is exact. -/
theorem C92_sub_neg [Libm f] (x y : FP f) :
    (x -. y) = (x +. Scalar.neg y) ∧ ext (Scalar.neg x) = (ext x).map (fun a => -a) ∧
    (isNan x = false → (Scalar.neg x).isNeg = !x.isNeg) ∧
    ext (Scalar.abs x) = (ext x).map (fun a => if a < 0 then -a else a) ∧
    (isNan x = false → (Scalar.abs x).isNeg = false) := by
  refine ⟨rfl, ?_, ?_, ?_, ?_⟩
  · show ext (FP.neg x) = _
    cases x with
    | nan => rfl
    | inf a => cases a <;> simp [FP.neg, ext]
    | zero a => simp [FP.neg, ext]
    | num q h => simp [FP.neg, ext]
  · intro h
    show (FP.neg x).isNeg = _
    cases x with
    | nan => rw [FP.isNan_false] at h; exact absurd rfl h
    | inf a => rfl
    | zero a => rfl
    | num q h => simp [FP.neg, FP.isNeg]; grind
  · show ext (FP.abs x) = _
    cases x with
    | nan => rfl
    | inf a => cases a <;> simp [FP.abs, FP.isNeg, FP.neg, ext]
    | zero a => cases a <;> simp [FP.abs, FP.isNeg, FP.neg, ext]
    | num q h =>
      have h0 : ((q : ℝ) : EReal) < 0 ↔ q < 0 := by
        rw [← EReal.coe_zero, EReal.coe_lt_coe_iff]; exact_mod_cast Iff.rfl
      by_cases hq : q < 0
      · simp [FP.abs, FP.isNeg, FP.neg, ext, hq, h0]
      · simp [FP.abs, FP.isNeg, ext, hq, h0]
  · intro h
    show (FP.abs x).isNeg = _
    cases x with
    | nan => rfl
    | inf a => cases a <;> rfl
    | zero a => cases a <;> rfl
    | num q h =>
      by_cases hq : q < 0
      · simp [FP.abs, FP.isNeg, FP.neg, hq, hq.le]
      · simp [FP.abs, FP.isNeg, hq]

/-- Multiplication: the exact product rounded; the sign of a zero is that of the product of the
signs; with infinities the extended product, NaN for zero times infinity. -/
theorem C92_mul [Libm f] (hp : 2 ≤ f.prec) (x y : FP f) :
    (x.fin = true → y.fin = true → x.val * y.val ≠ 0 → RoundsTo (x.val * y.val) (x *. y)) ∧
    (x.fin = true → y.fin = true → x.val * y.val = 0 → (x *. y) = .zero (x.isNeg ^^ y.isNeg)) ∧
    (¬ (x.fin = true ∧ y.fin = true) → ext (x *. y) =
      match ext x, ext y with
      | some a, some b => if a = 0 ∨ b = 0 then none else some (a * b)
      | _, _ => none) := by
  refine ⟨fun hx hy h => ?_, fun hx hy h => ?_, fun h => ?_⟩
  · exact (C92_rounding hp _ _ h _).2 (FP.mul_fin hx hy)
  · show FP.mul x y = _
    rw [FP.mul_fin hx hy, h, FP.ofRat_zero]
  · show ext (FP.mul x y) = _
    cases x with
    | nan => simp [FP.mul, ext]
    | inf a =>
      cases y with
      | nan => simp [FP.mul, ext]
      | inf b => cases a <;> cases b <;> simp [FP.mul, FP.isNeg, ext]
      | zero b => cases a <;> simp [FP.mul, ext]
      | num q hq =>
        rcases lt_or_gt_of_ne hq.1 with h0 | h0
        · have h1 : (q : ℝ) < 0 := by exact_mod_cast h0
          cases a <;> simp [FP.mul, FP.isNeg, ext, h0, hq.1, EReal.top_mul_coe_of_neg h1,
            EReal.bot_mul_coe_of_neg h1]
        · have h1 : 0 < (q : ℝ) := by exact_mod_cast h0
          have h2 : ¬ q < 0 := not_lt.2 h0.le
          cases a <;> simp [FP.mul, FP.isNeg, ext, h2, hq.1, EReal.top_mul_coe_of_pos h1,
            EReal.bot_mul_coe_of_pos h1]
    | zero a =>
      cases y with
      | nan => simp [FP.mul, ext]
      | inf b => cases b <;> simp [FP.mul, ext]
      | zero b => simp [FP.fin] at h
      | num q hq => simp [FP.fin] at h
    | num q hq =>
      cases y with
      | nan => simp [FP.mul, ext]
      | inf b =>
        rcases lt_or_gt_of_ne hq.1 with h0 | h0
        · have h1 : (q : ℝ) < 0 := by exact_mod_cast h0
          cases b <;> simp [FP.mul, FP.isNeg, ext, h0, hq.1, EReal.coe_mul_top_of_neg h1,
            EReal.coe_mul_bot_of_neg h1]
        · have h1 : 0 < (q : ℝ) := by exact_mod_cast h0
          have h2 : ¬ q < 0 := not_lt.2 h0.le
          cases b <;> simp [FP.mul, FP.isNeg, ext, h2, hq.1, EReal.coe_mul_top_of_pos h1,
            EReal.coe_mul_bot_of_pos h1]
      | zero b => simp [FP.fin] at h
      | num q hq => simp [FP.fin] at h

/-- Division: the exact quotient rounded; 0/0 and ∞/∞ are NaN; anything else divided by 0 is
infinite, and 0 when divided by an infinity; signs multiply. -/
theorem C92_div [Libm f] (hp : 2 ≤ f.prec) (x y : FP f) :
    (x.fin = true → y.fin = true → x.val ≠ 0 → y.val ≠ 0 → RoundsTo (x.val / y.val) (x /. y)) ∧
    (isNan x = true ∨ isNan y = true → isNan (x /. y) = true) ∧
    (x.fin = true → y.fin = true → x.val = 0 → y.val = 0 → isNan (x /. y) = true) ∧
    (x.fin = true → y.fin = true → x.val = 0 → y.val ≠ 0 → (x /. y) = .zero (x.isNeg ^^ y.isNeg)) ∧
    (x.fin = true → y.fin = true → x.val ≠ 0 → y.val = 0 → (x /. y) = .inf (x.isNeg ^^ y.isNeg)) ∧
    (x.fin = true → ∀ b, y = .inf b → (x /. y) = .zero (x.isNeg ^^ b)) ∧
    (∀ a, x = .inf a → y.fin = true → (x /. y) = .inf (a ^^ y.isNeg)) ∧
    (∀ a b, x = .inf a → y = .inf b → isNan (x /. y) = true) := by
  refine ⟨fun hx hy h h' => ?_, fun h => ?_, fun hx hy h h' => ?_, fun hx hy h h' => ?_,
    fun hx hy h h' => ?_, ?_, ?_, ?_⟩
  · exact (C92_rounding hp _ _ (div_ne_zero h h') _).2 (FP.div_fin hx hy h')
  · rw [FP.isNan_iff, FP.isNan_iff] at h
    rw [FP.isNan_iff]
    show FP.div x y = _
    rcases h with rfl | rfl
    · simp [FP.div]
    · cases x <;> simp [FP.div]
  · rw [FP.isNan_iff]
    show FP.div x y = _
    cases x with
    | nan => cases hx
    | inf _ => cases hx
    | num q hq => exact absurd h hq.1
    | zero a => cases y with
      | nan => cases hy
      | inf _ => cases hy
      | num q hq => exact absurd h' hq.1
      | zero b => rfl
  · show FP.div x y = _
    rw [FP.div_fin hx hy h', h, zero_div, FP.ofRat_zero]
  · show FP.div x y = _
    cases x with
    | nan => cases hx
    | inf _ => cases hx
    | zero a => exact absurd rfl h
    | num q hq => cases y with
      | nan => cases hy
      | inf _ => cases hy
      | num q hq => exact absurd h' hq.1
      | zero b => rfl
  · rintro hx b rfl
    show FP.div x _ = _
    cases x <;> first | rfl | cases hx
  · rintro a rfl hy
    show FP.div _ y = _
    cases y <;> first | rfl | cases hy
  · rintro a b rfl rfl
    rfl

/-- Comparisons are those of the extended real numbers; nothing compares with NaN, and only NaN is
not equal to itself. -/
theorem C92_compare [Libm f] (x y : FP f) :
    ((x <. y) = true ↔ ∃ a b, ext x = some a ∧ ext y = some b ∧ a < b) ∧
    ((x ==. y) = true ↔ ∃ a b, ext x = some a ∧ ext y = some b ∧ a = b) ∧
    ((x <=. y) = true ↔ ∃ a b, ext x = some a ∧ ext y = some b ∧ a ≤ b) ∧
    (isNan x = true ↔ ext x = none) := by
  have hlt : (x <. y) = true ↔ ∃ a b, ext x = some a ∧ ext y = some b ∧ a < b := by
    show FP.lt x y = true ↔ _
    have neg : ∀ q : ℚ, ((q : ℝ) : EReal) < 0 ↔ q < 0 := by
      intro q; rw [← EReal.coe_zero, EReal.coe_lt_coe_iff]; exact_mod_cast Iff.rfl
    have pos : ∀ q : ℚ, 0 < ((q : ℝ) : EReal) ↔ 0 < q := by
      intro q; rw [← EReal.coe_zero, EReal.coe_lt_coe_iff]; exact_mod_cast Iff.rfl
    cases x with
    | nan => simp [FP.lt, ext]
    | inf a => cases a <;> (cases y with
      | nan => simp [FP.lt, ext]
      | inf b => cases b <;> simp [FP.lt, ext]
      | zero b => simp [FP.lt, ext]
      | num q hq => simp [FP.lt, ext])
    | zero a => cases y with
      | nan => simp [FP.lt, ext]
      | inf b => cases b <;> simp [FP.lt, ext]
      | zero b => simp [FP.lt, ext, FP.val]
      | num q hq => simp [FP.lt, ext, FP.val, pos]; exact decide_eq_true_iff
    | num r hr => cases y with
      | nan => simp [FP.lt, ext]
      | inf b => cases b <;> simp [FP.lt, ext]
      | zero b => simp [FP.lt, ext, FP.val, neg]; exact decide_eq_true_iff
      | num q hq => simp [FP.lt, ext, FP.val]; exact decide_eq_true_iff
  have heq : (x ==. y) = true ↔ ∃ a b, ext x = some a ∧ ext y = some b ∧ a = b := by
    show FP.eq x y = true ↔ _
    cases x with
    | nan => simp [FP.eq, ext]
    | inf a => cases a <;> (cases y with
      | nan => simp [FP.eq, ext]
      | inf b => cases b <;> simp [FP.eq, ext]
      | zero b => simp [FP.eq, ext]
      | num q hq => simp [FP.eq, ext])
    | zero a => cases y with
      | nan => simp [FP.eq, ext]
      | inf b => cases b <;> simp [FP.eq, ext]
      | zero b => simp [FP.eq, ext, FP.val]
      | num q hq => simp [FP.eq, ext, FP.val, hq.1, hq.1.symm]
    | num r hr => cases y with
      | nan => simp [FP.eq, ext]
      | inf b => cases b <;> simp [FP.eq, ext]
      | zero b => simp [FP.eq, ext, FP.val, hr.1]; exact fun h => hr.1 (by exact_mod_cast h.symm)
      | num q hq =>
        simp [FP.eq, ext, FP.val]
        exact ⟨fun h => (of_decide_eq_true h).symm, fun h => decide_eq_true h.symm⟩
  refine ⟨hlt, heq, ?_, ?_⟩
  · show (x <. y || x ==. y) = true ↔ _
    rw [Bool.or_eq_true, hlt, heq]
    constructor
    · rintro (⟨a, b, h1, h2, h3⟩ | ⟨a, b, h1, h2, h3⟩)
      · exact ⟨a, b, h1, h2, h3.le⟩
      · exact ⟨a, b, h1, h2, h3.le⟩
    · rintro ⟨a, b, h1, h2, h3⟩
      rcases lt_or_eq_of_le h3 with h | h
      · exact Or.inl ⟨a, b, h1, h2, h⟩
      · exact Or.inr ⟨a, b, h1, h2, h⟩
  · rw [FP.isNan_iff]
    cases x with
    | inf a => cases a <;> simp [ext]
    | _ => simp [ext]

/-- `min` and `max` return one of their operands, the less or the greater; if one is NaN the other. -/
theorem C92_min_max [Libm f] (x y : FP f) :
    (isNan x = true → Scalar.min x y = y ∧ Scalar.max x y = y) ∧
    (isNan y = true → isNan x = false → Scalar.min x y = x ∧ Scalar.max x y = x) ∧
    (∀ a b, ext x = some a → ext y = some b →
      ext (Scalar.min x y) = some (min a b) ∧ ext (Scalar.max x y) = some (max a b)) := by
  refine ⟨fun h => by simp [Scalar.min, Scalar.max, h], fun h h' => by simp [Scalar.min, Scalar.max, h, h'], ?_⟩
  intro a b ha hb
  have hx : isNan x = false := by
    rw [Bool.eq_false_iff]; intro h; rw [(C92_compare x y).2.2.2, ha] at h; cases h
  have hy : isNan y = false := by
    rw [Bool.eq_false_iff]; intro h; rw [(C92_compare y x).2.2.2, hb] at h; cases h
  have h1 : (x <. y) = decide (a < b) := by
    rw [Bool.eq_iff_iff, (C92_compare x y).1]; simp [ha, hb]
  have h2 : (y <. x) = decide (b < a) := by
    rw [Bool.eq_iff_iff, (C92_compare y x).1]; simp [ha, hb]
  constructor
  · unfold Scalar.min
    simp only [hx, hy, Bool.false_eq_true, if_false]
    rw [show Scalar.lt y x = decide (b < a) from h2]
    by_cases h : b < a
    · simp [h, hb, h.le]
    · simp [h, ha, not_lt.1 h]
  · unfold Scalar.max
    simp only [hx, hy, Bool.false_eq_true, if_false]
    rw [show Scalar.lt x y = decide (a < b) from h1]
    by_cases h : a < b
    · simp [h, hb, h.le]
    · simp [h, ha, not_lt.1 h]

/-- Rounding a float to an integer never leaves the format. -/
theorem integral_exact (g : ℚ → Int) (hg : ∀ z : ℤ, g z = z) (hb : ∀ q, |(g q : ℚ) - q| ≤ 1)
    {x : FP f} (hx : x.fin = true) : (FP.integral g x).fin = true ∧ (FP.integral g x).val = g x.val := by
  cases x with
  | nan => cases hx
  | inf _ => cases hx
  | zero s => refine ⟨rfl, ?_⟩; have := hg 0; simp only [Int.cast_zero] at this; simp [FP.integral, FP.val, this]
  | num q h =>
    have hrep : IsRep f (g q : ℚ) ∧ |(g q : ℚ)| < pow2 f.emax := by
      obtain ⟨m, e, hm, he, hq⟩ := h.2.1
      by_cases h0 : 0 ≤ e
      · obtain ⟨k, hk⟩ := pow2_int h0
        have hint : q = ((m * k : ℤ) : ℚ) := by rw [hq, hk]; push_cast; rfl
        have : (g q : ℚ) = q := by rw [hint, hg]
        rw [this]; exact h.2
      · apply FP.int_finite
        have hp := pow2_pos e
        have hpos := f.pos
        have hmq : (|(m : ℚ)|) < 2 ^ f.prec := by exact_mod_cast hm
        have he1 : pow2 e ≤ 1 / 2 := by
          have : pow2 (-1) = 1 / 2 := by rw [pow2_eq]; norm_num
          rw [← this]; exact pow2_le (by omega)
        have hP : (2 : ℚ) ≤ 2 ^ f.prec := by
          calc (2 : ℚ) = 2 ^ 1 := by norm_num
            _ ≤ _ := pow_le_pow_right₀ (by norm_num) hpos
        have habs : |q| ≤ 2 ^ f.prec / 2 := by
          rw [hq, abs_mul, abs_of_pos hp]; nlinarith [abs_nonneg (m : ℚ)]
        have := hb q
        have h3 : |(g q : ℚ)| ≤ |q| + 1 := by
          have := abs_sub_abs_le_abs_sub (g q : ℚ) q; linarith
        have h4 : |(g q : ℚ)| ≤ 2 ^ f.prec := by linarith
        exact_mod_cast h4
    have := FP.ofRat_rep (f := f) (s := decide (q < 0)) hrep.1 hrep.2
    exact this

theorem integral_sign (g : ℚ → Int) (hp : ∀ q, 0 ≤ q → 0 ≤ g q) (hn : ∀ q, q ≤ 0 → g q ≤ 0) (x : FP f) :
    (FP.integral g x).isNeg = x.isNeg := by
  cases x with
  | nan => rfl
  | inf _ => rfl
  | zero _ => rfl
  | num q h =>
    show (FP.ofRat f (decide (q < 0)) (g q)).isNeg = decide (q < 0)
    rcases lt_or_gt_of_ne h.1 with hq | hq
    · have h1 : (g q : ℚ) ≤ 0 := by exact_mod_cast hn q hq.le
      unfold FP.ofRat
      split
      · rcases lt_or_eq_of_le h1 with h2 | h2
        · simp [FP.isNeg, h2.ne, hq]; exact_mod_cast h2
        · simp [FP.isNeg, h2, hq]
      · rename_i h0
        have h2 : (g q : ℚ) < 0 := lt_of_le_of_ne h1 (fun h => h0 (by rw [h, rn_zero]))
        split
        · simp [FP.isNeg, hq, (rn_neg_iff h0).2 h2]
        · simp [FP.isNeg, hq]; exact_mod_cast h2
    · have h1 : (0 : ℚ) ≤ g q := by exact_mod_cast hp q hq.le
      unfold FP.ofRat
      split
      · simp only [FP.isNeg]
        split
        · rfl
        · rw [decide_eq_decide]; constructor <;> intro <;> linarith
      · split
        · have := rn_nonneg (f := f) h1
          simp only [FP.isNeg]; rw [decide_eq_decide]; constructor <;> intro <;> linarith
        · simp only [FP.isNeg]; rw [decide_eq_decide]; constructor <;> intro <;> linarith

/-- `floor`, `ceil` and `round` of a finite float are the exact integers: the greatest integer not
above it, the least not below it, the nearest one with half way cases away from zero. They keep the
sign (also of a zero result) and leave infinities and NaN alone. -/
theorem C92_integral [Libm f] (x : FP f) :
    (x.fin = true →
      ((Scalar.floor x).fin = true ∧ ∃ n : ℤ, (Scalar.floor x).val = n ∧ (n : ℚ) ≤ x.val ∧ x.val < n + 1) ∧
      ((Scalar.ceil x).fin = true ∧ ∃ n : ℤ, (Scalar.ceil x).val = n ∧ x.val ≤ n ∧ n - 1 < x.val) ∧
      ((Scalar.round x).fin = true ∧ ∃ n : ℤ, (Scalar.round x).val = n ∧ |n - x.val| ≤ 1 / 2 ∧
        (|n - x.val| = 1 / 2 → |x.val| < |(n : ℚ)|))) ∧
    (x.fin = false → Scalar.floor x = x ∧ Scalar.ceil x = x ∧ Scalar.round x = x) ∧
    (Scalar.floor x).isNeg = x.isNeg ∧ (Scalar.ceil x).isNeg = x.isNeg ∧
    (Scalar.round x).isNeg = x.isNeg := by
  have fl : ∀ q : ℚ, |((⌊q⌋ : ℤ) : ℚ) - q| ≤ 1 := fun q => by
    have := Int.floor_le q; have := Int.lt_floor_add_one q; rw [abs_le]; constructor <;> linarith
  have ce : ∀ q : ℚ, |((⌈q⌉ : ℤ) : ℚ) - q| ≤ 1 := fun q => by
    have := Int.le_ceil q; have := Int.ceil_lt_add_one q; rw [abs_le]; constructor <;> linarith
  have ro : ∀ q : ℚ, |(FP.roundAway q : ℚ) - q| ≤ 1 / 2 ∧
      (|(FP.roundAway q : ℚ) - q| = 1 / 2 → |q| < |(FP.roundAway q : ℚ)|) := fun q => by
    unfold FP.roundAway
    split
    · rename_i hq
      have h1 := Int.le_ceil (q - 1 / 2); have h2 := Int.ceil_lt_add_one (q - 1 / 2)
      refine ⟨by rw [abs_le]; constructor <;> linarith, fun h => ?_⟩
      rcases (abs_eq (by norm_num)).1 h with h | h
      · exfalso; linarith
      · rw [abs_of_neg hq, abs_of_neg (by linarith)]; linarith
    · rename_i hq
      have h1 := Int.floor_le (q + 1 / 2); have h2 := Int.lt_floor_add_one (q + 1 / 2)
      refine ⟨by rw [abs_le]; constructor <;> linarith, fun h => ?_⟩
      rcases (abs_eq (by norm_num)).1 h with h | h
      · rw [abs_of_nonneg (not_lt.1 hq), abs_of_nonneg (by linarith)]; linarith
      · exfalso; linarith
  have roi : ∀ z : ℤ, FP.roundAway (z : ℚ) = z := fun z => by
    have h := (ro z).1
    rw [abs_le] at h
    have a : ((FP.roundAway (z : ℚ) : ℤ) : ℚ) < z + 1 := by linarith
    have b : (z : ℚ) - 1 < FP.roundAway (z : ℚ) := by linarith
    have a' : FP.roundAway (z : ℚ) < z + 1 := by exact_mod_cast a
    have b' : z - 1 < FP.roundAway (z : ℚ) := by exact_mod_cast b
    omega
  refine ⟨fun hx => ⟨?_, ?_, ?_⟩, fun hx => ?_, ?_, ?_, ?_⟩
  · have := integral_exact Int.floor (fun z => Int.floor_intCast z) fl hx
    exact ⟨this.1, _, this.2, Int.floor_le _, Int.lt_floor_add_one _⟩
  · have := integral_exact Int.ceil (fun z => Int.ceil_intCast z) ce hx
    exact ⟨this.1, _, this.2, Int.le_ceil _, by have := Int.ceil_lt_add_one x.val; linarith⟩
  · have := integral_exact FP.roundAway roi (fun q => le_trans (ro q).1 (by norm_num)) hx
    exact ⟨this.1, _, this.2, (ro _).1, (ro _).2⟩
  · cases x <;> first | exact ⟨rfl, rfl, rfl⟩ | cases hx
  · exact integral_sign _ (fun q h => Int.floor_nonneg.2 h) (fun q h => by
      have := Int.floor_le q; exact_mod_cast this.trans h) x
  · exact integral_sign _ (fun q h => Int.ceil_nonneg h) (fun q h => Int.ceil_le.2 (by simpa using h)) x
  · refine integral_sign _ (fun q h => ?_) (fun q h => ?_) x
    · unfold FP.roundAway
      rw [if_neg (not_lt.2 h)]; exact Int.floor_nonneg.2 (by linarith)
    · unfold FP.roundAway
      split
      · exact Int.ceil_le.2 (by push_cast; linarith)
      · have : q = 0 := by linarith
        subst this; norm_num

/-- `as` casts to an integer type with the given least and greatest value: toward zero, NaN becomes
0 and what is outside becomes the nearer end. -/
theorem C92_toInt [Libm f] (lo hi : ℤ) (hlo : lo ≤ 0) (hhi : 0 ≤ hi) (x : FP f) :
    (isNan x = true → Scalar.toInt lo hi x = 0) ∧
    (x = .inf true → Scalar.toInt lo hi x = lo) ∧ (x = .inf false → Scalar.toInt lo hi x = hi) ∧
    (x.fin = true → ∃ n : ℤ, |(n : ℚ)| ≤ |x.val| ∧ |x.val| < |(n : ℚ)| + 1 ∧ 0 ≤ n * x.val ∧
      Scalar.toInt lo hi x = if n < lo then lo else if hi < n then hi else n) := by
  refine ⟨fun h => ?_, fun h => ?_, fun h => ?_, fun h => ?_⟩
  · rw [FP.isNan_iff] at h; subst h; rfl
  · subst h; rfl
  · subst h; rfl
  · refine ⟨FP.trunc x.val, ?_, ?_, ?_, ?_⟩
    · unfold FP.trunc
      split
      · rename_i hq
        have h1 := Int.le_ceil x.val
        have h2 : ((⌈x.val⌉ : ℤ) : ℚ) ≤ 0 := by exact_mod_cast Int.ceil_le.2 (by simpa using hq.le)
        rw [abs_of_neg hq, abs_of_nonpos h2]; linarith
      · rename_i hq
        have h1 := Int.floor_le x.val
        have h2 : (0 : ℚ) ≤ ((⌊x.val⌋ : ℤ) : ℚ) := by exact_mod_cast Int.floor_nonneg.2 (not_lt.1 hq)
        rw [abs_of_nonneg (not_lt.1 hq), abs_of_nonneg h2]; exact h1
    · unfold FP.trunc
      split
      · rename_i hq
        have h1 := Int.ceil_lt_add_one x.val
        have h2 : ((⌈x.val⌉ : ℤ) : ℚ) ≤ 0 := by exact_mod_cast Int.ceil_le.2 (by simpa using hq.le)
        rw [abs_of_neg hq, abs_of_nonpos h2]; linarith
      · rename_i hq
        have h1 := Int.lt_floor_add_one x.val
        have h2 : (0 : ℚ) ≤ ((⌊x.val⌋ : ℤ) : ℚ) := by exact_mod_cast Int.floor_nonneg.2 (not_lt.1 hq)
        rw [abs_of_nonneg (not_lt.1 hq), abs_of_nonneg h2]; exact h1
    · unfold FP.trunc
      split
      · rename_i hq
        have h2 : ((⌈x.val⌉ : ℤ) : ℚ) ≤ 0 := by exact_mod_cast Int.ceil_le.2 (by simpa using hq.le)
        exact mul_nonneg_of_nonpos_of_nonpos h2 hq.le
      · rename_i hq
        have h2 : (0 : ℚ) ≤ ((⌊x.val⌋ : ℤ) : ℚ) := by exact_mod_cast Int.floor_nonneg.2 (not_lt.1 hq)
        exact mul_nonneg h2 (not_lt.1 hq)
    · show FP.toInt lo hi x = _
      rw [FP.toInt_fin lo hi h]
      split
      · omega
      · split <;> omega

/-- Conversion to another format rounds the value, and is exact if the value is representable there
(as every `f32` is as an `f64`). -/
theorem C92_cast {g : Fmt} (hp : 2 ≤ g.prec) (x : FP f) :
    (x.fin = true → x.val ≠ 0 → RoundsTo x.val (FP.cast g x)) ∧
    (x.fin = true → x.val = 0 → FP.cast g x = .zero x.isNeg) ∧
    (x.fin = false → ext (FP.cast g x) = ext x) := by
  refine ⟨fun hx h => ?_, fun hx h => ?_, fun hx => ?_⟩
  · refine (C92_rounding hp x.isNeg _ h _).2 ?_
    cases x <;> first | rfl | cases hx
  · have : FP.cast g x = FP.ofRat g x.isNeg x.val := by cases x <;> first | rfl | cases hx
    rw [this, h, FP.ofRat_zero]
  · cases x with
    | nan => rfl
    | inf a => cases a <;> rfl
    | zero _ => cases hx
    | num _ _ => cases hx

end

theorem C92_widen (x : F32) : ext (FP.cast b64 x) = ext x ∧
    (x ≠ .nan → (FP.cast b64 x).isNeg = x.isNeg) := by
  cases x with
  | nan => exact ⟨rfl, fun h => absurd rfl h⟩
  | inf a => cases a <;> exact ⟨rfl, fun _ => rfl⟩
  | zero a =>
    have : FP.cast b64 (FP.zero a : F32) = .zero a := FP.ofRat_zero a
    rw [this]; exact ⟨rfl, fun _ => rfl⟩
  | num q h =>
    have hrep : IsRep b64 q := by
      obtain ⟨m, e, hm, he, hq⟩ := h.2.1
      refine ⟨m, e, lt_of_lt_of_le hm (by norm_num), le_trans (by norm_num) he, hq⟩
    have hlt : |q| < pow2 b64.emax := lt_of_lt_of_le h.2.2 (pow2_le (by norm_num))
    have h1 : rn b64 q = q := rn_rep hrep
    have : FP.cast b64 (FP.num q h : F32) = .num q ⟨h.1, hrep, hlt⟩ := by
      show FP.ofRat b64 _ q = _
      unfold FP.ofRat
      rw [dif_neg (by rw [h1]; exact h.1), dif_pos (by rw [h1]; exact hlt)]
      simp only [h1]
    rw [this]; exact ⟨rfl, fun _ => rfl⟩

/-- Four bytes, the first the highest, as `to_be_bytes` writes them: they hold the bit pattern of the
number in the standard's encoding (any NaN pattern for a NaN). -/
theorem C92_bits (x : F32) :
    decode32 x.bits32 = ext x ∧ x.bits32 < 2 ^ 32 ∧
    (x ≠ .nan → (x.isNeg = true ↔ 2 ^ 31 ≤ x.bits32)) ∧
    ∃ a b c d, FloatBytes.be x = [a, b, c, d] ∧ a < 256 ∧ b < 256 ∧ c < 256 ∧ d < 256 ∧
      x.bits32 = a * 2 ^ 24 + b * 2 ^ 16 + c * 2 ^ 8 + d := by
  have main : decode32 x.bits32 = ext x ∧ x.bits32 < 2 ^ 32 ∧
      (x ≠ .nan → (x.isNeg = true ↔ 2 ^ 31 ≤ x.bits32)) := by
    have enc : ∀ (s : Bool) (e m : Nat), e < 256 → m < 2 ^ 23 →
        ((if s then 2 ^ 31 else 0) + (e * 2 ^ 23 + m)) / 2 ^ 31 % 2 = (if s then 1 else 0) ∧
        ((if s then 2 ^ 31 else 0) + (e * 2 ^ 23 + m)) / 2 ^ 23 % 2 ^ 8 = e ∧
        ((if s then 2 ^ 31 else 0) + (e * 2 ^ 23 + m)) % 2 ^ 23 = m ∧
        ((if s then 2 ^ 31 else 0) + (e * 2 ^ 23 + m)) < 2 ^ 32 ∧
        (s = true ↔ 2 ^ 31 ≤ (if s then 2 ^ 31 else 0) + (e * 2 ^ 23 + m)) := by
      intro s e m he hm
      cases s <;> simp only [Bool.false_eq_true, if_false, if_true] <;>
        refine ⟨by omega, by omega, by omega, by omega, ?_⟩
      · constructor
        · intro h; cases h
        · intro h; omega
      · constructor <;> intro <;> first | trivial | omega
    cases x with
    | nan =>
      refine ⟨?_, by norm_num [FP.bits32], fun h => absurd rfl h⟩
      unfold decode32 FP.bits32 ext; norm_num
    | inf s =>
      obtain ⟨h1, h2, h3, h4, h5⟩ := enc s 255 0 (by norm_num) (by norm_num)
      have hb : (FP.inf s : F32).bits32 = (if s then 2 ^ 31 else 0) + (255 * 2 ^ 23 + 0) := by
        cases s <;> simp [FP.bits32]
      rw [hb]
      refine ⟨?_, h4, fun _ => h5⟩
      unfold decode32
      simp only [h1, h2, h3]
      cases s <;> simp [ext]; norm_num
    | zero s =>
      obtain ⟨h1, h2, h3, h4, h5⟩ := enc s 0 0 (by norm_num) (by norm_num)
      have hb : (FP.zero s : F32).bits32 = (if s then 2 ^ 31 else 0) + (0 * 2 ^ 23 + 0) := by
        cases s <;> simp [FP.bits32]
      rw [hb]
      refine ⟨?_, h4, fun _ => h5⟩
      unfold decode32
      simp only [h1, h2, h3]
      cases s <;> simp [ext]
    | num q h =>
      obtain ⟨l1, l2⟩ := ilog2_spec h.1
      have hk : ilog2 q < 128 := ilog2_lt h.1 h.2.2
      obtain ⟨m, hm⟩ := rep_multiple (f := b32) (q := q) h.2.1 (Or.inl l1)
      have hu : ulpExp b32 q = max (ilog2 q - 23) (-149) := rfl
      have hup := pow2_pos (ulpExp b32 q)
      have habs : |q| = (m.natAbs : ℚ) * pow2 (ulpExp b32 q) := by
        conv_lhs => rw [hm]
        rw [abs_mul, abs_of_pos hup, Nat.cast_natAbs]; push_cast; rfl
      have hsign : q = (if decide (q < 0) then -1 else 1) * ((m.natAbs : ℚ) * pow2 (ulpExp b32 q)) := by
        rw [← habs]
        rcases lt_or_gt_of_ne h.1 with hq | hq
        · rw [abs_of_neg hq]; simp [hq]
        · rw [abs_of_pos hq]; simp [not_lt.2 hq.le]
      by_cases hn : -126 ≤ ilog2 q
      · have hu' : ulpExp b32 q = ilog2 q - 23 := by omega
        have lo : 2 ^ 23 ≤ m.natAbs := by
          rw [habs, hu', pow2_sub, ← mul_div_assoc, le_div_iff₀ (pow2_pos _), mul_comm] at l1
          have := le_of_mul_le_mul_right l1 (pow2_pos (ilog2 q))
          rw [show (23 : ℤ) = ((23 : ℕ) : ℤ) from rfl, pow2_nat] at this
          exact_mod_cast this
        have hi : m.natAbs < 2 ^ 24 := by
          rw [habs, hu', pow2_sub, ← mul_div_assoc, div_lt_iff₀ (pow2_pos _), pow2_succ] at l2
          have : (m.natAbs : ℚ) * pow2 (ilog2 q) < (2 * pow2 23) * pow2 (ilog2 q) := by linarith
          have := lt_of_mul_lt_mul_right this (pow2_pos (ilog2 q)).le
          rw [show (23 : ℤ) = ((23 : ℕ) : ℤ) from rfl, pow2_nat] at this
          have h2 : (m.natAbs : ℚ) < ((2 ^ 24 : ℕ) : ℚ) := by push_cast; linarith
          exact_mod_cast h2
        have hfl : ⌊|q| * pow2 (23 - ilog2 q)⌋ = (m.natAbs : ℤ) := by
          rw [habs, hu', mul_assoc, ← pow2_add, show ilog2 q - 23 + (23 - ilog2 q) = 0 by omega,
            show pow2 0 = 1 from rfl, mul_one]
          exact Int.floor_natCast _
        obtain ⟨h1, h2, h3, h4, h5⟩ := enc (decide (q < 0)) (ilog2 q + 127).toNat (m.natAbs - 2 ^ 23)
          (by omega) (by omega)
        have hb : (FP.num q h : F32).bits32 = (if decide (q < 0) then 2 ^ 31 else 0) +
            ((ilog2 q + 127).toNat * 2 ^ 23 + (m.natAbs - 2 ^ 23)) := by
          simp only [FP.bits32, decide_eq_true_eq]
          rw [if_pos hn, hfl, Int.toNat_natCast]
        rw [hb]
        refine ⟨?_, h4, fun _ => h5⟩
        unfold decode32
        simp only [h1, h2, h3]
        rw [if_neg (by omega), if_neg (by omega)]
        have hE : (((ilog2 q + 127).toNat : ℕ) : ℤ) - 150 = ilog2 q - 23 := by omega
        have hM : ((2 : ℝ) ^ 23 + ((m.natAbs - 2 ^ 23 : ℕ) : ℝ)) = (m.natAbs : ℝ) := by
          rw [Nat.cast_sub lo]; push_cast; ring
        simp only [ext]
        refine congrArg (fun t : ℝ => some (t : EReal)) ?_
        rw [hE, hM]
        have hq := congrArg (fun t : ℚ => (t : ℝ)) hsign
        rw [hq, hu', pow2_eq]
        push_cast
        by_cases c : q < 0 <;> simp [c]
      · have hu' : ulpExp b32 q = -149 := by omega
        have hi : m.natAbs < 2 ^ 23 := by
          have l3 : |q| < pow2 (-126) := lt_of_lt_of_le l2 (pow2_le (by omega))
          rw [habs, hu', show (-126 : ℤ) = ((23 : ℕ) : ℤ) + -149 from rfl, pow2_add, pow2_nat] at l3
          have := lt_of_mul_lt_mul_right l3 (pow2_pos (-149)).le
          exact_mod_cast this
        have hfl : ⌊|q| * pow2 149⌋ = (m.natAbs : ℤ) := by
          rw [habs, hu', mul_assoc, ← pow2_add, show (-149 : ℤ) + 149 = 0 by omega,
            show pow2 0 = 1 from rfl, mul_one]
          exact Int.floor_natCast _
        obtain ⟨h1, h2, h3, h4, h5⟩ := enc (decide (q < 0)) 0 m.natAbs (by omega) hi
        have hb : (FP.num q h : F32).bits32 = (if decide (q < 0) then 2 ^ 31 else 0) +
            (0 * 2 ^ 23 + m.natAbs) := by
          simp only [FP.bits32, decide_eq_true_eq]
          rw [if_neg hn, hfl, Int.toNat_natCast, Nat.zero_mul, Nat.zero_add]
        rw [hb]
        refine ⟨?_, h4, fun _ => h5⟩
        unfold decode32
        simp only [h1, h2, h3]
        rw [if_neg (by omega), if_pos trivial]
        simp only [ext]
        refine congrArg (fun t : ℝ => some (t : EReal)) ?_
        have hq := congrArg (fun t : ℚ => (t : ℝ)) hsign
        rw [hq, hu', pow2_eq]
        push_cast
        by_cases c : q < 0 <;> simp [c]
  refine ⟨main.1, main.2.1, main.2.2, _, _, _, _, rfl, ?_, ?_, ?_, ?_, ?_⟩ <;> have := main.2.1 <;> omega

end D10
