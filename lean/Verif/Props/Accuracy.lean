import Verif.Lemmas.Near
import Verif.Props.Srgb

/-!
# Accuracy of binary32 results (C86)

The program computes with 32-bit floating point numbers. Each theorem compares such a result with the
result of the same operation in exact arithmetic, for all colours with channels in [0, 1].
-/

namespace D10
open Spec
variable [Libm b32] [Junk]

local notation "Chan01 " x => FP.fin x = true ∧ 0 ≤ FP.val x ∧ FP.val x ≤ 1

/-- A weighted sum of three channels in [0, 1] with weights up to 1. -/
theorem weighted {x y z : F32} (hx : Chan01 x) (hy : Chan01 y) (hz : Chan01 z)
    (a b c : ℚ) (ha : |(a : ℝ)| ≤ 1) (hb : |(b : ℝ)| ≤ 1) (hc : |(c : ℝ)| ≤ 1) :
    NearF (x *. lit a +. y *. lit b +. z *. lit c)
      ((x.val : ℝ) *. lit a +. (y.val : ℝ) *. lit b +. (z.val : ℝ) *. lit c) (1 / 1048576) 3 := by
  have m : ∀ {x : F32} {a : ℚ}, (Chan01 x) → |(a : ℝ)| ≤ 1 →
      NearF (x *. lit a) ((x.val : ℝ) * a) (1 / 33554432 + 1 / 16777216) 1 := fun hx ha =>
    ((NearF.unit hx).mul 1 (by norm_num) (NearF.lit 0 _ (by norm_num) ha (by norm_num)) (by norm_num)).mono
      (by norm_num) (by norm_num)
  exact (((m hx ha).add 2 (by norm_num) (m hy hb) (by norm_num)).add 2 (by norm_num) (m hz hc)
    (by norm_num)).mono (by norm_num) (by norm_num)

omit [Libm b32] [Junk] in
theorem close_self {x : F32} {e : ℝ} (h : x.fin = true) (he : 0 ≤ e) : Close x x.val e :=
  ⟨h, by simpa using he⟩

theorem near_clamp {x : F32} {q e B : ℝ} (h : NearF x q e B) : Close (clamp01 x) (clamp01 q) e := by
  rw [Exact.clamp01]; exact h.clamp.close

theorem clamp_unit {x : F32} (h : Chan01 x) : Close (clamp01 x) (clamp01 (x.val : ℝ)) 0 :=
  near_clamp (NearF.unit h)

omit [Libm b32] [Junk] in
theorem close_clamp_exact {x : F32} {q r e d : ℝ} (h : Close x q e) (hr : |q - r| ≤ d) :
    Close x r (e + d) :=
  ⟨h.fin, by
    calc |(x.val : ℝ) - r| = |(x.val - q) + (q - r)| := by ring_nf
      _ ≤ _ := abs_add_le _ _
      _ ≤ _ := add_le_add h.err hr⟩

omit [Libm b32] in
theorem clamp01_sub (q r : ℝ) : |(clamp01 q : ℝ) - clamp01 r| ≤ |q - r| := by
  rw [Exact.clamp01, Exact.clamp01]
  refine (NearF.max_sub_max _ _ _ _).trans (max_le (by simp) ?_)
  exact (NearF.min_sub_min _ _ _ _).trans (max_le (by simp) le_rfl)

omit [Libm b32] in
theorem clamp01_diff_le_one (q r : ℝ) : |(clamp01 q : ℝ) - clamp01 r| ≤ 1 := by
  rw [Exact.clamp01, Exact.clamp01, abs_le]
  have h : ∀ x : ℝ, 0 ≤ max 0 (min 1 x) ∧ max 0 (min 1 x) ≤ 1 := fun x =>
    ⟨le_max_left _ _, max_le zero_le_one (min_le_left _ _)⟩
  constructor <;> linarith [(h q).1, (h q).2, (h r).1, (h r).2]

omit [Junk] in
/-- Above 1 a clamped number is 1, also when it overflows. -/
theorem clamp_big {x : F32} (h : (x.fin = true ∧ 1 ≤ x.val) ∨ x = .inf false) :
    (clamp01 x).fin = true ∧ (clamp01 x).val = 1 := by
  rcases h with ⟨h, h1⟩ | h
  · obtain ⟨a, b⟩ := NearF.clamp_fin h
    exact ⟨a, by rw [b, min_eq_left h1]; norm_num⟩
  · subst h
    unfold clamp01 Scalar.clamp
    have c0 : Scalar.lt (FP.inf false : F32) (Scalar.lit 0 : F32) = false := by
      show FP.lt (.inf false) (FP.ofRat b32 false 0) = false; decide +kernel
    have c1 : Scalar.lt (Scalar.lit 1 : F32) (FP.inf false : F32) = true := by
      show FP.lt (FP.ofRat b32 false 1) (.inf false) = true; decide +kernel
    rw [c0, c1]
    exact FP.lit1

omit [Junk] in
/-- Below 0 a clamped number is 0, also when it overflows. -/
theorem clamp_small {x : F32} (h : (x.fin = true ∧ x.val ≤ 0) ∨ x = .inf true) :
    (clamp01 x).fin = true ∧ (clamp01 x).val = 0 := by
  rcases h with ⟨h, h1⟩ | h
  · obtain ⟨a, b⟩ := NearF.clamp_fin h
    exact ⟨a, by rw [b, min_eq_right (h1.trans zero_le_one), max_eq_left h1]⟩
  · subst h
    unfold clamp01 Scalar.clamp
    have c0 : Scalar.lt (FP.inf true : F32) (Scalar.lit 0 : F32) = true := by
      show FP.lt (.inf true) (FP.ofRat b32 false 0) = true; decide +kernel
    rw [c0]
    exact FP.lit0

omit [Libm b32] [Junk] in
/-- Rounding a number above 2 gives at least 2 or an infinity. -/
theorem round_big {b : Bool} {q : ℚ} (h : 2 ≤ q) :
    ((FP.ofRat b32 b q).fin = true ∧ 2 ≤ (FP.ofRat b32 b q).val) ∨ FP.ofRat b32 b q = .inf false := by
  have hr : 2 ≤ rn b32 q := rep_le_rn (by
    have := IsRep.pow2 (f := b32) (k := 1) (by decide)
    rwa [show pow2 1 = 2 from rfl] at this) h
  by_cases ho : |rn b32 q| < pow2 b32.emax
  · obtain ⟨a, c⟩ := FP.ofRat_val (f := b32) (s := b) ho
    exact .inl ⟨a, by rw [c]; exact hr⟩
  · right
    unfold FP.ofRat
    rw [dif_neg (by linarith), dif_neg ho]
    congr 1
    simp; linarith

omit [Libm b32] [Junk] in
/-- Rounding a number below -1 or -2 stays there or gives an infinity. -/
theorem round_small {b : Bool} {q r : ℚ} (hr : r = 1 ∨ r = 2) (h : q ≤ -r) :
    ((FP.ofRat b32 b q).fin = true ∧ (FP.ofRat b32 b q).val ≤ -r) ∨ FP.ofRat b32 b q = .inf true := by
  have h0 : 0 < r := by rcases hr with h | h <;> rw [h] <;> norm_num
  have hrep : IsRep b32 r := by
    rcases hr with h | h <;> rw [h]
    · have := IsRep.pow2 (f := b32) (k := 0) (by decide)
      rwa [show pow2 0 = 1 from rfl] at this
    · have := IsRep.pow2 (f := b32) (k := 1) (by decide)
      rwa [show pow2 1 = 2 from rfl] at this
  have hr : r ≤ rn b32 (-q) := rep_le_rn hrep (by linarith)
  rw [rn_neg] at hr
  by_cases ho : |rn b32 q| < pow2 b32.emax
  · obtain ⟨a, c⟩ := FP.ofRat_val (f := b32) (s := b) ho
    exact .inl ⟨a, by rw [c]; linarith⟩
  · right
    unfold FP.ofRat
    rw [dif_neg (by linarith), dif_neg ho]
    congr 1
    simp; linarith

/-- Rounding and clamping, with no bound on the number. -/
theorem clamp_round {b : Bool} (q : ℚ) :
    Close (clamp01 (FP.ofRat b32 b q)) (clamp01 (q : ℝ)) (1 / 16777216) := by
  by_cases h1 : 2 < q
  · obtain ⟨a, c⟩ := clamp_big (x := FP.ofRat b32 b q) ((round_big h1.le).imp (fun h => ⟨h.1, by linarith⟩) id)
    refine ⟨a, ?_⟩
    have : (2 : ℝ) < q := by exact_mod_cast h1
    rw [c, Exact.clamp01, min_eq_left (by linarith)]
    norm_num
  · by_cases h2 : q < -2
    · obtain ⟨a, c⟩ := clamp_small (x := FP.ofRat b32 b q)
        ((round_small (.inr rfl) h2.le).imp (fun h => ⟨h.1, by linarith⟩) id)
      refine ⟨a, ?_⟩
      have : (q : ℝ) < -2 := by exact_mod_cast h2
      rw [c, Exact.clamp01, min_eq_right (by linarith), max_eq_left (by linarith)]
      norm_num
    · have h : |(q : ℝ)| ≤ 2 := by
        have : |q| ≤ 2 := abs_le.2 ⟨not_lt.1 h2, not_lt.1 h1⟩
        exact_mod_cast this
      exact (near_clamp (NearF.round (b := b) (q := q) (r := q) (e := 0) (B := 2) 1 (by norm_num) (by simp) h
        (by norm_num))).mono (by norm_num)

/-- `x * k + 1/2`, clamped, for any finite `k`. -/
theorem stretch {x k : F32} {q e : ℝ} (hx : NearF x q e 2) (hk : k.fin = true) :
    Close (clamp01 (x *. k +. lit 0.5)) (clamp01 (q * k.val + 1 / 2)) (|(k.val : ℝ)| * e + 1 / 8388608) := by
  have half : (Scalar.lit 0.5 : F32).fin = true ∧ (Scalar.lit 0.5 : F32).val = 1 / 2 := by
    show (FP.ofRat b32 false 0.5).fin = true ∧ (FP.ofRat b32 false 0.5).val = 1 / 2
    decide +kernel
  have he := hx.e_nonneg
  have ke : 0 ≤ |(k.val : ℝ)| * e := mul_nonneg (abs_nonneg _) he
  have dist : |(x.val : ℝ) * k.val - q * k.val| ≤ |(k.val : ℝ)| * e := by
    rw [← sub_mul, abs_mul, mul_comm]
    exact mul_le_mul_of_nonneg_left hx.close.err (abs_nonneg _)
  have clampdist : |(clamp01 ((x.val : ℝ) * k.val + 1 / 2) : ℝ) - clamp01 (q * k.val + 1 / 2)| ≤
      |(k.val : ℝ)| * e := by
    refine (clamp01_sub _ _).trans ?_
    rwa [add_sub_add_right_eq_sub]
  have main : Close (clamp01 (x *. k +. lit 0.5)) (clamp01 ((x.val : ℝ) * k.val + 1 / 2)) (1 / 8388608) := by
    have hp : (x *. k) = FP.ofRat b32 (x.isNeg ^^ k.isNeg) (x.val * k.val) :=
      FP.mul_fin hx.close.fin hk
    by_cases h1 : 2 < x.val * k.val
    · have hr : (2 : ℝ) < (x.val : ℝ) * k.val := by exact_mod_cast h1
      have hc : (clamp01 ((x.val : ℝ) * k.val + 1 / 2) : ℝ) = 1 := by
        rw [Exact.clamp01, min_eq_left (by linarith)]; norm_num
      have big : (clamp01 (x *. k +. lit 0.5)).fin = true ∧ (clamp01 (x *. k +. lit 0.5)).val = 1 := by
        apply clamp_big
        rw [hp]
        rcases round_big (b := (x.isNeg ^^ k.isNeg)) h1.le with ⟨a, c⟩ | h
        · show ((FP.add _ _).fin = true ∧ 1 ≤ (FP.add _ _).val) ∨ FP.add _ _ = _
          rw [FP.add_fin a half.1, half.2]
          exact (round_big (by linarith)).imp (fun h => ⟨h.1, by linarith⟩) id
        · right; rw [h]; show FP.add (FP.inf false) (Scalar.lit 0.5) = _
          have := half.1
          revert this; generalize (Scalar.lit 0.5 : F32) = w; intro hw
          cases w <;> simp_all [FP.add, FP.fin]
      refine ⟨big.1, ?_⟩
      rw [big.2, hc]; norm_num
    · by_cases h2 : x.val * k.val < -2
      · have hr : (x.val : ℝ) * k.val < -2 := by exact_mod_cast h2
        have hc : (clamp01 ((x.val : ℝ) * k.val + 1 / 2) : ℝ) = 0 := by
          rw [Exact.clamp01, min_eq_right (by linarith), max_eq_left (by linarith)]
        have small : (clamp01 (x *. k +. lit 0.5)).fin = true ∧ (clamp01 (x *. k +. lit 0.5)).val = 0 := by
          apply clamp_small
          rw [hp]
          rcases round_small (b := (x.isNeg ^^ k.isNeg)) (.inr rfl) h2.le with ⟨a, c⟩ | h
          · show ((FP.add _ _).fin = true ∧ (FP.add _ _).val ≤ 0) ∨ FP.add _ _ = _
            rw [FP.add_fin a half.1, half.2]
            exact (round_small (.inl rfl) (by linarith)).imp (fun h => ⟨h.1, by linarith⟩) id
          · right; rw [h]; show FP.add (FP.inf true) (Scalar.lit 0.5) = _
            have := half.1
            revert this; generalize (Scalar.lit 0.5 : F32) = w; intro hw
            cases w <;> simp_all [FP.add, FP.fin]
        refine ⟨small.1, ?_⟩
        rw [small.2, hc]; norm_num
      · have hq : |((x.val * k.val : ℚ) : ℝ)| ≤ 2 := by
          have : |x.val * k.val| ≤ 2 := abs_le.2 ⟨not_lt.1 h2, not_lt.1 h1⟩
          exact_mod_cast this
        have n := NearF.round (b := (x.isNeg ^^ k.isNeg)) (q := x.val * k.val)
          (r := ((x.val * k.val : ℚ) : ℝ)) (e := 0) (B := 2) 1 (by norm_num) (by simp) hq (by norm_num)
        rw [← hp] at n
        have hs : (x *. k +. lit 0.5) = FP.ofRat b32 ((x *. k).isNeg && (Scalar.lit 0.5 : F32).isNeg)
            ((x *. k).val + 1 / 2) := by
          rw [← half.2]; exact FP.add_fin n.close.fin half.1
        rw [hs]
        refine (close_clamp_exact (clamp_round _) (d := 1 / 16777216) ?_).mono (by norm_num)
        refine (clamp01_sub _ _).trans ?_
        have := n.close.err
        push_cast at this ⊢
        rw [add_sub_add_right_eq_sub]
        exact this.trans (by norm_num)
  exact (close_clamp_exact main clampdist).mono (by linarith)

/-- C86: the sepia tone. -/
theorem C86_sepia (c : Col F32) (h : UnitCol c) :
    CloseCol (1 / 1048576) (Rgb.with_sepia c) (Rgb.with_sepia (exact c)) where
  c0 := near_clamp (weighted h.c0 h.c1 h.c2 _ _ _ (by norm_num) (by norm_num) (by norm_num))
  c1 := near_clamp (weighted h.c0 h.c1 h.c2 _ _ _ (by norm_num) (by norm_num) (by norm_num))
  c2 := near_clamp (weighted h.c0 h.c1 h.c2 _ _ _ (by norm_num) (by norm_num) (by norm_num))
  alpha := ((near_clamp (NearF.unit h.alpha))).mono (by norm_num)

/-- C86: inverting a colour. -/
theorem C86_invert (c : Col F32) (h : UnitCol c) :
    CloseCol (1 / 33554432) (Rgb.invert c) (Rgb.invert (exact c)) where
  c0 := inv h.c0
  c1 := inv h.c1
  c2 := inv h.c2
  alpha := close_self h.alpha.1 (by norm_num)
where
  inv {x : F32} (hx : Chan01 x) : Close (lit 1 -. x) (lit 1 -. (x.val : ℝ)) (1 / 33554432) := by
    have h1 : |1 - (x.val : ℝ)| ≤ 1 := by
      have h0 : (0 : ℝ) ≤ x.val := by exact_mod_cast hx.2.1
      have h1 : (x.val : ℝ) ≤ 1 := by exact_mod_cast hx.2.2
      rw [abs_le]; constructor <;> linarith
    exact (NearF.one.sub' 0 (by norm_num) (NearF.unit hx) h1 (by norm_num)).is (by ex_simp)
      (by norm_num)

/-- C86: the difference of two colours. -/
theorem C86_difference (c d : Col F32) (hc : UnitCol c) (hd : UnitCol d) :
    CloseCol (1 / 33554432) (Rgb.difference c d) (Rgb.difference (exact c) (exact d)) where
  c0 := dif hc.c0 hd.c0
  c1 := dif hc.c1 hd.c1
  c2 := dif hc.c2 hd.c2
  alpha := by
    have := NearF.one.is (r := (lit 1 : ℝ)) (d := 1 / 33554432) (by ex_simp) (by norm_num)
    exact this
where
  dif {x y : F32} (hx : Chan01 x) (hy : Chan01 y) :
      Close (clamp01 (Scalar.abs (x -. y))) (clamp01 (Scalar.abs ((x.val : ℝ) -. (y.val : ℝ)))) (1 / 33554432) := by
    have h1 : |(x.val : ℝ) - y.val| ≤ 1 := by
      have h0 : (0 : ℝ) ≤ x.val := by exact_mod_cast hx.2.1
      have h1 : (x.val : ℝ) ≤ 1 := by exact_mod_cast hx.2.2
      have h2 : (0 : ℝ) ≤ y.val := by exact_mod_cast hy.2.1
      have h3 : (y.val : ℝ) ≤ 1 := by exact_mod_cast hy.2.2
      rw [abs_le]; constructor <;> linarith
    exact (near_clamp ((NearF.unit hx).sub' 0 (by norm_num) (NearF.unit hy) h1 (by norm_num)).abs).mono
      (by norm_num)

/-- C86: adding brightness, for every finite amount. -/
theorem C86_brightness (c : Col F32) (b : F32) (h : UnitCol c) (hb : b.fin = true) :
    CloseCol (1 / 16777216) (Rgb.with_brightness c b) (Rgb.with_brightness (exact c) b.val) where
  c0 := br h.c0
  c1 := br h.c1
  c2 := br h.c2
  alpha := close_self h.alpha.1 (by norm_num)
where
  br {x : F32} (hx : Chan01 x) :
      Close (clamp01 (x +. b)) (clamp01 ((x.val : ℝ) +. (b.val : ℝ))) (1 / 16777216) := by
    have e : (x +. b) = FP.ofRat b32 (x.isNeg && b.isNeg) (x.val + b.val) := FP.add_fin hx.1 hb
    rw [e]
    have := clamp_round (b := (x.isNeg && b.isNeg)) (x.val + b.val)
    push_cast at this
    exact this

/-- C86: stretching the contrast, for every finite factor. -/
theorem C86_contrast (c : Col F32) (k : F32) (h : UnitCol c) (hk : k.fin = true) :
    CloseCol ((|(k.val : ℝ)| + 4) / 33554432) (Rgb.with_contrast c k) (Rgb.with_contrast (exact c) k.val) where
  c0 := st h.c0
  c1 := st h.c1
  c2 := st h.c2
  alpha := close_self h.alpha.1 (by positivity)
where
  st {x : F32} (hx : Chan01 x) : Close (clamp01 ((x -. lit 0.5) *. k +. lit 0.5))
      (clamp01 (((x.val : ℝ) -. lit 0.5) *. (k.val : ℝ) +. lit 0.5)) ((|(k.val : ℝ)| + 4) / 33554432) := by
    have h1 : |(x.val : ℝ) - 1 / 2| ≤ 1 := by
      have h0 : (0 : ℝ) ≤ x.val := by exact_mod_cast hx.2.1
      have h1 : (x.val : ℝ) ≤ 1 := by exact_mod_cast hx.2.2
      rw [abs_le]; constructor <;> linarith
    have n := ((NearF.unit hx).sub' 0 (by norm_num) NearF.half h1 (by norm_num)).mono
      (show _ ≤ (1 / 33554432 : ℝ) by norm_num) (show (1 : ℝ) ≤ 2 by norm_num)
    have := (stretch n hk).mono (show _ ≤ (|(k.val : ℝ)| + 4) / 33554432 by
      apply le_of_eq; ring)
    have e : (((x.val : ℝ) -. lit 0.5) *. (k.val : ℝ) +. lit 0.5) = ((x.val : ℝ) - 1 / 2) * k.val + 1 / 2 := by
      ex_simp; norm_num
    rw [e]; exact this

/-- C86: brightness and contrast in one step, for every finite factor and brightness from -1 to 1. -/
theorem C86_brightness_contrast (c : Col F32) (b k : F32) (h : UnitCol c) (hb : b.fin = true)
    (hb1 : |b.val| ≤ 1) (hk : k.fin = true) :
    CloseCol ((|(k.val : ℝ)| * 6 + 4) / 33554432) (Rgb.with_brightness_contrast c b k)
      (Rgb.with_brightness_contrast (exact c) b.val k.val) where
  c0 := st h.c0
  c1 := st h.c1
  c2 := st h.c2
  alpha := close_self h.alpha.1 (by positivity)
where
  st {x : F32} (hx : Chan01 x) : Close (clamp01 ((x +. b -. lit 0.5) *. k +. lit 0.5))
      (clamp01 (((x.val : ℝ) +. (b.val : ℝ) -. lit 0.5) *. (k.val : ℝ) +. lit 0.5))
      ((|(k.val : ℝ)| * 6 + 4) / 33554432) := by
    have hb1' : |(b.val : ℝ)| ≤ 1 := by exact_mod_cast hb1
    have h1 : |(x.val : ℝ) + b.val - 1 / 2| ≤ 2 := by
      have h0 : (0 : ℝ) ≤ x.val := by exact_mod_cast hx.2.1
      have h1 : (x.val : ℝ) ≤ 1 := by exact_mod_cast hx.2.2
      rw [abs_le] at hb1' ⊢; constructor <;> linarith
    have n := (((NearF.unit hx).add 1 (by norm_num) (NearF.of_fin hb hb1') (by norm_num)).sub' 2 (by norm_num)
      NearF.half h1 (by norm_num)).mono (show _ ≤ (6 / 33554432 : ℝ) by norm_num) le_rfl
    have := (stretch n hk).mono (show _ ≤ (|(k.val : ℝ)| * 6 + 4) / 33554432 by
      apply le_of_eq; ring)
    have e : (((x.val : ℝ) +. (b.val : ℝ) -. lit 0.5) *. (k.val : ℝ) +. lit 0.5) =
        ((x.val : ℝ) + b.val - 1 / 2) * k.val + 1 / 2 := by
      ex_simp; norm_num
    rw [e]; exact this

/-- C86: alpha blending. -/
theorem C86_alpha_blend (c o : Col F32) (hc : UnitCol c) (ho : UnitCol o) :
    CloseCol (1 / 4194304) (Rgb.alpha_blend c o) (Rgb.alpha_blend (exact c) (exact o)) where
  c0 := bl hc.c0 ho.c0 ho.alpha
  c1 := bl hc.c1 ho.c1 ho.alpha
  c2 := bl hc.c2 ho.c2 ho.alpha
  alpha := by
    have n := ((((NearF.unit hc.alpha).add 1 (by norm_num) (NearF.unit ho.alpha) (by norm_num))).min NearF.one)
    refine ((near_clamp n).mono (by norm_num)).congr ?_
    show clamp01 _ = clamp01 (Scalar.min ((c.alpha.val : ℝ) +. (o.alpha.val : ℝ)) (lit 1))
    rw [Exact.min]
    ex_simp
where
  bl {x y a : F32} (hx : Chan01 x) (hy : Chan01 y) (ha : Chan01 a) :
      Close (clamp01 (y *. a +. (lit 1 -. a) *. x))
        (clamp01 ((y.val : ℝ) *. (a.val : ℝ) +. (lit 1 -. (a.val : ℝ)) *. (x.val : ℝ))) (1 / 4194304) := by
    have h1 : |1 - (a.val : ℝ)| ≤ 1 := by
      have h0 : (0 : ℝ) ≤ a.val := by exact_mod_cast ha.2.1
      have h1 : (a.val : ℝ) ≤ 1 := by exact_mod_cast ha.2.2
      rw [abs_le]; constructor <;> linarith
    have n1 := (NearF.unit hy).mul 0 (by norm_num) (NearF.unit ha) (by norm_num)
    have n2 := (NearF.one.sub' 0 (by norm_num) (NearF.unit ha) h1 (by norm_num)).mul 1 (by norm_num)
      (NearF.unit hx) (by norm_num)
    refine ((near_clamp (n1.add 2 (by norm_num) n2 (by norm_num))).mono (by norm_num)).congr ?_
    ex_simp

/-- C86: conversion of RGB to XYZ and of sRGB to YUV. -/
theorem C86_matrices (c : Col F32) (h : UnitCol c) :
    CloseCol (1 / 1048576) (to_xyz .rgb c) (to_xyz .rgb (exact c)) ∧
    CloseCol (1 / 1048576) (to_yuv .srgb c) (to_yuv .srgb (exact c)) :=
  ⟨⟨(weighted h.c0 h.c1 h.c2 _ _ _ (by norm_num) (by norm_num) (by norm_num)).close,
    (weighted h.c0 h.c1 h.c2 _ _ _ (by norm_num) (by norm_num) (by norm_num)).close,
    (weighted h.c0 h.c1 h.c2 _ _ _ (by norm_num) (by norm_num) (by norm_num)).close,
    close_self h.alpha.1 (by norm_num)⟩,
   ⟨(weighted h.c0 h.c1 h.c2 _ _ _ (by norm_num) (by norm_num) (by norm_num)).close,
    (weighted h.c0 h.c1 h.c2 _ _ _ (by norm_num) (by norm_num) (by norm_num)).close,
    (weighted h.c0 h.c1 h.c2 _ _ _ (by norm_num) (by norm_num) (by norm_num)).close,
    close_self h.alpha.1 (by norm_num)⟩⟩

/-- A row of the matrix back: factors up to 4, arguments up to 2 that are already `e` off. -/
theorem back_row {x y z : F32} {p q r : ℝ} (hx : NearF x p (1 / 1048576) 2) (hy : NearF y q (1 / 1048576) 2)
    (hz : NearF z r (1 / 1048576) 2) (a b c : ℚ) (ha : |(a : ℝ)| ≤ 3.25) (hb : |(b : ℝ)| ≤ 2)
    (hc : |(c : ℝ)| ≤ 1.25) :
    Close (clamp01 (x *. lit a +. y *. lit b +. z *. lit c))
      (clamp01 (p *. lit a +. q *. lit b +. r *. lit c)) (1 / 65536) := by
  have m1 := hx.mul 3 (by norm_num) (NearF.lit 2 a (by norm_num) ha (by norm_num)) (by norm_num)
  have m2 := hy.mul 3 (by norm_num) (NearF.lit 1 b (by norm_num) hb (by norm_num)) (by norm_num)
  have m3 := hz.mul 2 (by norm_num) (NearF.lit 1 c (by norm_num) hc (by norm_num)) (by norm_num)
  refine (near_clamp ((m1.add 4 (by norm_num) m2 (by norm_num)).add 4 (by norm_num) m3
    (by norm_num))).mono (by norm_num)

/-- C86: RGB to XYZ and back, compared with exact arithmetic. -/
theorem C86_xyz_back (c : Col F32) (h : UnitCol c) :
    CloseCol (1 / 65536) (to_rgb .xyz (to_xyz .rgb c)) (to_rgb .xyz (to_xyz .rgb (exact c))) := by
  have row : ∀ a b d : ℚ, |(a : ℝ)| + |(b : ℝ)| + |(d : ℝ)| ≤ 2 → |(a : ℝ)| ≤ 1 → |(b : ℝ)| ≤ 1 → |(d : ℝ)| ≤ 1 →
      NearF (c.c0 *. lit a +. c.c1 *. lit b +. c.c2 *. lit d)
        ((c.c0.val : ℝ) *. lit a +. (c.c1.val : ℝ) *. lit b +. (c.c2.val : ℝ) *. lit d) (1 / 1048576) 2 := by
    intro a b d hs ha hb hd
    refine ⟨(weighted h.c0 h.c1 h.c2 a b d ha hb hd).close, ?_⟩
    have hp : ∀ {x : F32} (_ : Chan01 x) (w : ℚ), |(x.val : ℝ) * w| ≤ |(w : ℝ)| := fun {x} hx w => by
      rw [abs_mul]
      exact (mul_le_mul_of_nonneg_right (NearF.unit hx).le (abs_nonneg _)).trans (by rw [one_mul])
    show |(c.c0.val : ℝ) * a + (c.c1.val : ℝ) * b + (c.c2.val : ℝ) * d| ≤ 2
    have := abs_add_le ((c.c0.val : ℝ) * a + (c.c1.val : ℝ) * b) ((c.c2.val : ℝ) * d)
    have := abs_add_le ((c.c0.val : ℝ) * a) ((c.c1.val : ℝ) * b)
    have := hp h.c0 a
    have := hp h.c1 b
    have := hp h.c2 d
    linarith
  have r0 := row 0.412453 0.357580 0.180423 (by norm_num) (by norm_num) (by norm_num) (by norm_num)
  have r1 := row 0.212671 0.715160 0.072169 (by norm_num) (by norm_num) (by norm_num) (by norm_num)
  have r2 := row 0.019334 0.119193 0.950227 (by norm_num) (by norm_num) (by norm_num) (by norm_num)
  exact ⟨back_row r0 r1 r2 _ _ _ (by norm_num) (by norm_num) (by norm_num),
    back_row r0 r1 r2 _ _ _ (by norm_num) (by norm_num) (by norm_num),
    back_row r0 r1 r2 _ _ _ (by norm_num) (by norm_num) (by norm_num),
    close_self h.alpha.1 (by norm_num)⟩

omit [Libm b32] [Junk] in
theorem exact_unit {c : Col F32} (h : UnitCol c) : Spec.Unit (exact c) := by
  obtain ⟨⟨_, a, b⟩, ⟨_, d, e⟩, ⟨_, f, g⟩, ⟨_, i, j⟩⟩ := h
  constructor <;> simp only [exact] <;> exact_mod_cast ‹_›

omit [Junk] in
/-- Colours within EPSILON of each other, channel by channel, are equal (`==`). -/
theorem eq_of_close {c d : Col F32} {e : Col ℝ} {a b : ℝ} (hc : CloseCol a c e)
    (hd : d.c0.fin = true ∧ d.c1.fin = true ∧ d.c2.fin = true ∧ d.alpha.fin = true)
    (h0 : |e.c0 - d.c0.val| ≤ b) (h1 : |e.c1 - d.c1.val| ≤ b) (h2 : |e.c2 - d.c2.val| ≤ b)
    (h3 : |e.alpha - d.alpha.val| ≤ b) (hab : a + b ≤ 1 / 32768) : Col.eq c d = true := by
  have key : ∀ {x y : F32} {q : ℝ}, Close x q a → y.fin = true → |q - y.val| ≤ b →
      ((EPSILON : F32) <. Scalar.abs (x -. y)) = false := fun {x y q} hx hy hq => by
    apply FP.chan_eq hx.fin hy
    have := (close_clamp_exact hx hq).err.trans hab
    have h' : ((|x.val - y.val| : ℚ) : ℝ) ≤ ((1 / 32768 : ℚ) : ℝ) := by push_cast; exact this
    exact_mod_cast h'
  unfold Col.eq
  rw [key hc.c0 hd.1 h0, key hc.c1 hd.2.1 h1, key hc.c2 hd.2.2.1 h2, key hc.alpha hd.2.2.2 h3]
  rfl

/-- C86: RGB to XYZ and back is equal (`==`) to the colour, computed in binary32. -/
theorem C86_xyz_round_trip (c : Col F32) (h : UnitCol c) :
    Col.eq (to_rgb .xyz (to_xyz .rgb c)) c = true := by
  obtain ⟨_, e0, e1, e2, e3⟩ := C31_xyz_round_trip (exact c) (exact_unit h)
  refine eq_of_close (C86_xyz_back c h) ⟨h.c0.1, h.c1.1, h.c2.1, h.alpha.1⟩ e0 e1 e2 ?_ (by norm_num)
  rw [e3]; simp [exact]; norm_num

/-- C86: the gray values, except the saturation. -/
theorem C86_gray (c : Col F32) (i : Intensity) (hi : i ≠ .Saturation) (h : UnitCol c) :
    CloseCol (1 / 1048576) (Rgb.to_gray_with_intensity c i) (Rgb.to_gray_with_intensity (exact c) i) := by
  suffices ∀ {v : F32} {w : ℝ}, (Rgb.to_gray_with_intensity c i) = ⟨v, v, v, c.alpha⟩ →
      Rgb.to_gray_with_intensity (exact c) i = ⟨w, w, w, (exact c).alpha⟩ → Close v w (1 / 1048576) →
      CloseCol (1 / 1048576) (Rgb.to_gray_with_intensity c i) (Rgb.to_gray_with_intensity (exact c) i) by
    have n0 := NearF.unit h.c0
    have n1 := NearF.unit h.c1
    have n2 := NearF.unit h.c2
    have z : NearF (lit 0 : F32) (lit 0 : ℝ) 0 1 := by
      have := NearF.lit_rep (B := 1) 0 FP.lit0 (by norm_num); exact this
    have mx : NearF (Rgb.max c) (Rgb.max (exact c)) 0 1 := by
      have := ((z.max n0).max n1).max n2
      refine (this.congr ?_).mono (by norm_num) (by norm_num)
      show _ = Scalar.max (Scalar.max (Scalar.max (lit 0) (c.c0.val : ℝ)) (c.c1.val : ℝ)) (c.c2.val : ℝ)
      rw [Exact.max, Exact.max, Exact.max]
    have mn : NearF (Rgb.min c) (Rgb.min (exact c)) 0 1 := by
      have := ((NearF.one.min n0).min n1).min n2
      refine (this.congr ?_).mono (by norm_num) (by norm_num)
      show _ = Scalar.min (Scalar.min (Scalar.min (lit 1) (c.c0.val : ℝ)) (c.c1.val : ℝ)) (c.c2.val : ℝ)
      rw [Exact.min, Exact.min, Exact.min]; ex_simp
    cases i with
    | Rec601Luma => exact this rfl rfl (weighted h.c0 h.c1 h.c2 _ _ _ (by norm_num) (by norm_num) (by norm_num)).close
    | Rec709Luma => exact this rfl rfl (weighted h.c0 h.c1 h.c2 _ _ _ (by norm_num) (by norm_num) (by norm_num)).close
    | Average =>
      refine this rfl rfl ?_
      have s := ((n0.add 1 (by norm_num) n1 (by norm_num)).add 2 (by norm_num) n2 (by norm_num)).div 1
        (by norm_num) NearF.three (m := 3) (by norm_num) (by norm_num) (by norm_num)
      refine s.is ?_ (by norm_num)
      simp only [exact]; ex_simp
    | Brightness => exact this rfl rfl (mx.close.mono (by norm_num))
    | Lightness =>
      refine this rfl rfl ?_
      have s := (mn.add 1 (by norm_num) mx (by norm_num)).div 1
        (by norm_num) NearF.two (m := 2) (by norm_num) (by norm_num) (by norm_num)
      refine s.is ?_ (by norm_num)
      ex_simp
    | Saturation => exact absurd rfl hi
    | Red => exact this rfl rfl (n0.close.mono (by norm_num))
    | Green => exact this rfl rfl (n1.close.mono (by norm_num))
    | Blue => exact this rfl rfl (n2.close.mono (by norm_num))
  intro v w e1 e2 hc
  rw [e1, e2]
  exact ⟨hc, hc, hc, close_self h.alpha.1 (by norm_num)⟩

/-- Non-vacuity. -/
example : UnitCol (⟨FP.ofRat b32 false (1 / 3), FP.ofRat b32 false 1, FP.ofRat b32 false 0.001,
    FP.ofRat b32 false (1 / 2)⟩ : Col F32) :=
  ⟨by decide +kernel, by decide +kernel, by decide +kernel, by decide +kernel⟩

end D10
