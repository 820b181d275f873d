import Verif.Lemmas.Nearest
import Verif.Lemmas.Near
import Mathlib.Tactic.Linarith
import Mathlib.Tactic.FieldSimp
import Mathlib.Data.Nat.Log

/-!
# How exactly resize computes positions in binary32
-/

namespace D10
open Spec

theorem half_exact [Libm b32] (x : Nat) (h : x ≤ 8388607) :
    (Scalar.ofNat x +. lit 0.5 : F32).fin = true ∧
      (Scalar.ofNat x +. lit 0.5 : F32).val = (x : ℚ) + 1 / 2 := by
  obtain ⟨x1, x2⟩ := nat_exact x (by omega)
  have half2 : (lit 0.5 : F32).fin = true ∧ (lit 0.5 : F32).val = 0.5 := by
    show (FP.ofRat b32 false 0.5).fin = true ∧ (FP.ofRat b32 false 0.5).val = 0.5
    decide +kernel
  have e : (Scalar.ofNat x +. lit 0.5 : F32) = FP.add (Scalar.ofNat x) (lit 0.5) := rfl
  rw [e, FP.add_fin x1 half2.1, half2.2, x2]
  have hr : IsRep b32 ((x : ℚ) + 0.5) := by
    refine ⟨2 * x + 1, -1, ?_, by decide, ?_⟩
    · have : |2 * (x : Int) + 1| < 16777216 := by rw [abs_lt]; omega
      simpa [b32] using this
    · have : pow2 (-1) = 1 / 2 := by decide +kernel
      rw [this]; push_cast; ring
  have hb : |(x : ℚ) + 0.5| < pow2 b32.emax := by
    have r2 := FP.int_finite (f := b32) 16777216 (by decide)
    have := r2.2
    rw [abs_of_nonneg (by norm_num)] at this
    have h0 : (0 : ℚ) ≤ x := Nat.cast_nonneg x
    have h1 : (x : ℚ) ≤ 8388607 := by exact_mod_cast h
    rw [abs_of_nonneg (by linarith)]
    push_cast at this; linarith
  have := FP.ofRat_rep (s := (Scalar.ofNat x : F32).isNeg && (lit 0.5 : F32).isNeg) hr hb
  norm_num at this ⊢
  exact this

theorem pos_div {n m x : ℚ} (hm : m ≠ 0) (hn : n ≠ 0) : x / (n / m) = x * m / n := by
  field_simp

theorem pow_between {m : Nat} (hm : 0 < m) (hml : m ≤ 2097152) :
    ∃ k : Nat, k ≤ 22 ∧ (m : ℚ) ≤ 2 ^ k ∧ (2 : ℚ) ^ k ≤ 2 * m := by
  refine ⟨Nat.clog 2 m, ?_, ?_, ?_⟩
  · exact Nat.clog_le_of_le_pow (by norm_num; omega)
  · exact_mod_cast Nat.le_pow_clog (by norm_num) m
  · rcases Nat.eq_or_lt_of_le hm with h | h
    · have : m = 1 := by omega
      subst this; norm_num
    · have := Nat.pow_pred_clog_lt_self (b := 2) (by norm_num) h
      have hc : 0 < Nat.clog 2 m := Nat.clog_pos (by norm_num) (by omega)
      have e2 : (2 : Nat) ^ Nat.clog 2 m = 2 * 2 ^ (Nat.clog 2 m).pred := by
        rw [← pow_succ']; congr 1; simp only [Nat.pred_eq_sub_one]; omega
      have : (2 : Nat) ^ Nat.clog 2 m ≤ 2 * m := by omega
      exact_mod_cast this

set_option maxHeartbeats 1000000 in
/-- The position computed for pixel `x` of `n` in a line of `m` pixels. -/
theorem scaledPos_near [Libm b32] {m n x : Nat} (hm : 0 < m) (hml : m ≤ 2097152) (hx : x < n)
    (hnl : n ≤ 2097152) :
    (scaledPos m n x : F32).fin = true ∧
      |(scaledPos m n x : F32).val - (((x : ℚ) + 1 / 2) * m / n - 1 / 2)| ≤ m / 4194304 ∧
      -1 ≤ (scaledPos m n x : F32).val ∧ (scaledPos m n x : F32).val ≤ 4194304 := by
  have hn : 0 < n := by omega
  obtain ⟨n1, n2⟩ := nat_exact n (by omega)
  obtain ⟨m1, m2⟩ := nat_exact m (by omega)
  obtain ⟨x1, x2⟩ := half_exact x (by omega)
  have hm' : (1 : ℚ) ≤ m := by exact_mod_cast hm
  have hml' : (m : ℚ) ≤ 2097152 := by exact_mod_cast hml
  have hn' : (1 : ℚ) ≤ n := by exact_mod_cast hn
  have hnl' : (n : ℚ) ≤ 2097152 := by exact_mod_cast hnl
  have hx0 : (0 : ℚ) ≤ x := Nat.cast_nonneg x
  have hx1 : (x : ℚ) + 1 ≤ n := by exact_mod_cast hx
  have big : (16777216 : ℚ) < pow2 b32.emax := by
    have r2 := FP.int_finite (f := b32) 16777216 (by decide)
    have := r2.2
    rw [abs_of_nonneg (by norm_num)] at this
    exact_mod_cast this
  have tiny : pow2 (-126) ≤ 1 / 1125899906842624 := by
    have h2 : pow2 (-126) ≤ pow2 (-50) := pow2_le (by norm_num)
    have h3 : pow2 (-50) = 1 / 1125899906842624 := by decide +kernel
    linarith
  -- the scale
  set s : ℚ := (n : ℚ) / m with hs
  have s0 : 0 < s := by rw [hs]; positivity
  have hsm : s * m = n := by rw [hs]; field_simp
  have hs1 : s ≤ n := by rw [hs]; exact div_le_self (by linarith) hm'
  have hst : 1 / 4194304 ≤ s := by
    rw [hs, le_div_iff₀ (by linarith)]; linarith
  have hse : |rn b32 s - s| ≤ s / 16777216 := by
    have := rn_rel_normal (q := s) (by rw [abs_of_pos s0]; linarith)
    rwa [abs_of_pos s0] at this
  obtain ⟨s1, s2⟩ : (Scalar.ofNat n /. Scalar.ofNat m : F32).fin = true ∧
      (Scalar.ofNat n /. Scalar.ofNat m : F32).val = rn b32 s := by
    have e : (Scalar.ofNat n /. Scalar.ofNat m : F32) =
      FP.div (Scalar.ofNat n) (Scalar.ofNat m) := rfl
    rw [e, FP.div_fin n1 m1 (by rw [m2]; linarith), n2, m2, ← hs]
    refine FP.ofRat_val ?_
    have := abs_le.1 hse
    rw [abs_lt]
    constructor <;> linarith
  unfold scaledPos
  generalize (Scalar.ofNat n /. Scalar.ofNat m : F32) = S at s1 s2
  generalize (Scalar.ofNat x +. lit 0.5 : F32) = X at x1 x2
  generalize rn b32 s = sv at *
  have b := abs_le.1 hse
  have sp : 0 < sv := by linarith
  have e : (X /. S : F32) = FP.div X S := rfl
  rw [e, FP.div_fin x1 s1 (by rw [s2]; linarith), x2, s2]
  have hg : ((x : ℚ) + 1 / 2) * m / n = ((x : ℚ) + 1 / 2) / s := by
    rw [hs, pos_div (by linarith) (by linarith)]
  rw [hg]
  set g : ℚ := ((x : ℚ) + 1 / 2) / s with hgd
  have g0 : 0 < g := by rw [hgd]; positivity
  have gs : g * s = (x : ℚ) + 1 / 2 := by rw [hgd]; field_simp
  have gm : g ≤ m := by
    rw [hgd, div_le_iff₀ s0, mul_comm, hsm]; linarith
  set q : ℚ := ((x : ℚ) + 1 / 2) / sv with hqd
  have q0 : 0 < q := by rw [hqd]; positivity
  have qs : q * sv = (x : ℚ) + 1 / 2 := by rw [hqd]; field_simp
  have qg1 : q * (1 - 1 / 16777216) ≤ g := by
    have : q * (s * (1 - 1 / 16777216)) ≤ q * sv := mul_le_mul_of_nonneg_left (by linarith) q0.le
    have : q * (1 - 1 / 16777216) * s ≤ g * s := by linarith
    exact le_of_mul_le_mul_right this s0
  have qg2 : g ≤ q * (1 + 1 / 16777216) := by
    have : q * sv ≤ q * (s * (1 + 1 / 16777216)) := mul_le_mul_of_nonneg_left (by linarith) q0.le
    have : g * s ≤ q * (1 + 1 / 16777216) * s := by linarith
    exact le_of_mul_le_mul_right this s0
  have qm : q ≤ 4194305 := by linarith
  have qt : 1 / 16777216 ≤ q := by
    rw [hqd, le_div_iff₀ sp]; linarith
  have hr : |rn b32 q - q| ≤ q / 16777216 := by
    have := rn_rel_normal (q := q) (by rw [abs_of_pos q0]; linarith)
    rwa [abs_of_pos q0] at this
  have b2 := abs_le.1 hr
  have hv := FP.ofRat_val (f := b32) (s := X.isNeg ^^ S.isNeg) (q := q) (by
      rw [abs_lt]
      constructor <;> linarith)
  generalize FP.ofRat b32 (X.isNeg ^^ S.isNeg) q = G at hv
  obtain ⟨g1, g2⟩ := hv
  have half2 : (lit 0.5 : F32).fin = true ∧ (lit 0.5 : F32).val = 0.5 := by
    show (FP.ofRat b32 false 0.5).fin = true ∧ (FP.ofRat b32 false 0.5).val = 0.5
    decide +kernel
  have e : (G -. lit 0.5 : F32) = FP.sub G (lit 0.5) := rfl
  rw [e, FP.sub_fin g1 half2.1, half2.2, g2]
  generalize rn b32 q = r at *
  -- the last rounding
  obtain ⟨k, hk1, hk2, hk3⟩ := pow_between hm hml
  have hd : |r - 0.5| ≤ pow2 (k : Int) := by
    rw [pow2_nat, abs_le]
    constructor <;> linarith
  have he : b32.emin = -149 := rfl
  have hM : b32.emax = 128 := rfl
  have hp : (b32.prec : ℤ) = 24 := rfl
  have hf := FP.ofRat_small (s := G.isNeg && (lit 0.5 : F32).neg.isNeg) (q := r - 0.5) (k := (k : Int))
    (by omega) (by omega) hd
  have c := rn_err_le (f := b32) (q := r - 0.5) (k := (k : Int)) (by omega) hd
  have hpow : pow2 ((k : ℤ) - b32.prec) / 2 = 2 ^ k / 33554432 := by
    rw [hp, pow2_eq, zpow_sub₀ (by norm_num), zpow_natCast]; norm_num; ring
  rw [hpow] at c
  refine ⟨hf.1, ?_⟩
  rw [hf.2]
  have c2 := abs_le.1 c
  have qgm : q ≤ m + m / 8388608 := by linarith
  have w1 : rn b32 (r - 0.5) - (g - 1 / 2) ≤ m / 4194304 := by
    linarith
  have w2 : -(m / 4194304) ≤ rn b32 (r - 0.5) - (g - 1 / 2) := by
    linarith
  refine ⟨abs_le.2 ⟨w2, w1⟩, ?_, ?_⟩
  · refine rep_le_rn (r := -1) ?_ (by linarith)
    have := IsRep.int (f := b32) (z := -1) (by decide)
    exact_mod_cast this
  · refine rn_le_rep (r := 4194304) ?_ (by linarith)
    have := IsRep.int (f := b32) (z := 4194304) (by decide)
    exact_mod_cast this

/-- The pixel at or before a position, and how far behind it the position is. -/
theorem base_frac_near [Libm b32] {v : F32} (hv : v.fin = true) (h0 : -1 ≤ v.val) (h1 : v.val ≤ 4194304) :
    base v = ⌊v.val⌋ ∧ NearF (frac v) (Int.fract (v.val : ℝ)) (1 / 33554432) 1 := by
  have f0 : -1 ≤ ⌊v.val⌋ := Int.le_floor.2 (by push_cast; exact h0)
  have f1 : ⌊v.val⌋ < 4194305 := Int.floor_lt.2 (by push_cast; linarith)
  have r := FP.int_finite (f := b32) ⌊v.val⌋ (by
    have : (b32.prec) = 24 := rfl
    rw [this, abs_le]; constructor <;> norm_num <;> omega)
  obtain ⟨g1, g2, g3⟩ := FP.floor_bounds hv r.1 r.1 r.2 r.2 le_rfl le_rfl Int.floor rfl
  have hb := FP.asI32_floor hv r r (Int.floor_le _) (Int.lt_floor_add_one _) (by omega) (by omega)
  refine ⟨by omega, ?_⟩
  have gv : (FP.integral Int.floor v).val = ⌊v.val⌋ := by
    apply le_antisymm
    · exact g3
    · exact g2
  unfold frac
  have e : (v -. Scalar.floor v : F32) = FP.sub v (FP.integral Int.floor v) := rfl
  rw [e, FP.sub_fin hv g1, gv]
  have hfr : ((v.val - ⌊v.val⌋ : ℚ) : ℝ) = Int.fract (v.val : ℝ) := by
    push_cast
    rw [← Rat.floor_cast (α := ℝ) v.val]
    rfl
  have := NearF.round (b := v.isNeg && (FP.integral Int.floor v).neg.isNeg) (q := v.val - ⌊v.val⌋)
    (r := Int.fract (v.val : ℝ)) (e := 0) (B := 1) 0 (by norm_num)
    (by rw [hfr]; simp) (by rw [abs_of_nonneg (Int.fract_nonneg _)]; exact (Int.fract_lt_one _).le)
    (by norm_num)
  exact this.mono (by norm_num) le_rfl

/-- A position divided by the scale. -/
theorem quot_near [Libm b32] {m n : Nat} (hm : 0 < m) (hml : m ≤ 2097152) (hn : 0 < n)
    (hnl : n ≤ 2097152) {X : F32} {y : ℚ} (x1 : X.fin = true) (x2 : X.val = y) (y0 : 0 ≤ y)
    (yn : y ≤ n) (yt : y = 0 ∨ 1 / 2 ≤ y) :
    (X /. (Scalar.ofNat n /. Scalar.ofNat m) : F32).fin = true ∧
      |(X /. (Scalar.ofNat n /. Scalar.ofNat m) : F32).val - y * m / n| ≤ 21 / 10 * m / 16777216 := by
  obtain ⟨n1, n2⟩ := nat_exact n (by omega)
  obtain ⟨m1, m2⟩ := nat_exact m (by omega)
  have hm' : (1 : ℚ) ≤ m := by exact_mod_cast hm
  have hml' : (m : ℚ) ≤ 2097152 := by exact_mod_cast hml
  have hn' : (1 : ℚ) ≤ n := by exact_mod_cast hn
  have hnl' : (n : ℚ) ≤ 2097152 := by exact_mod_cast hnl
  have big : (16777216 : ℚ) < pow2 b32.emax := by
    have r2 := FP.int_finite (f := b32) 16777216 (by decide)
    have := r2.2
    rw [abs_of_nonneg (by norm_num)] at this
    exact_mod_cast this
  have tiny : pow2 (-126) ≤ 1 / 1125899906842624 := by
    have h2 : pow2 (-126) ≤ pow2 (-50) := pow2_le (by norm_num)
    have h3 : pow2 (-50) = 1 / 1125899906842624 := by decide +kernel
    linarith
  set s : ℚ := (n : ℚ) / m with hs
  have s0 : 0 < s := by rw [hs]; positivity
  have hsm : s * m = n := by rw [hs]; field_simp
  have hs1 : s ≤ n := by rw [hs]; exact div_le_self (by linarith) hm'
  have hst : 1 / 4194304 ≤ s := by
    rw [hs, le_div_iff₀ (by linarith)]; linarith
  have hse : |rn b32 s - s| ≤ s / 16777216 := by
    have := rn_rel_normal (q := s) (by rw [abs_of_pos s0]; linarith)
    rwa [abs_of_pos s0] at this
  obtain ⟨s1, s2⟩ : (Scalar.ofNat n /. Scalar.ofNat m : F32).fin = true ∧
      (Scalar.ofNat n /. Scalar.ofNat m : F32).val = rn b32 s := by
    have e : (Scalar.ofNat n /. Scalar.ofNat m : F32) =
      FP.div (Scalar.ofNat n) (Scalar.ofNat m) := rfl
    rw [e, FP.div_fin n1 m1 (by rw [m2]; linarith), n2, m2, ← hs]
    refine FP.ofRat_val ?_
    have := abs_le.1 hse
    rw [abs_lt]
    constructor <;> linarith
  generalize (Scalar.ofNat n /. Scalar.ofNat m : F32) = S at s1 s2
  generalize rn b32 s = sv at *
  have b := abs_le.1 hse
  have sp : 0 < sv := by linarith
  have e : (X /. S : F32) = FP.div X S := rfl
  rw [e, FP.div_fin x1 s1 (by rw [s2]; linarith), x2, s2]
  have hg : y * m / n = y / s := by rw [hs, pos_div (by linarith) (by linarith)]
  rw [hg]
  set g : ℚ := y / s with hgd
  have g0 : 0 ≤ g := by rw [hgd]; positivity
  have gs : g * s = y := by rw [hgd]; field_simp
  have gm : g ≤ m := by
    rw [hgd, div_le_iff₀ s0, mul_comm, hsm]; linarith
  set q : ℚ := y / sv with hqd
  have q0 : 0 ≤ q := by rw [hqd]; positivity
  have qs : q * sv = y := by rw [hqd]; field_simp
  have qg1 : q * (1 - 1 / 16777216) ≤ g := by
    have : q * (s * (1 - 1 / 16777216)) ≤ q * sv := mul_le_mul_of_nonneg_left (by linarith) q0
    have : q * (1 - 1 / 16777216) * s ≤ g * s := by linarith
    exact le_of_mul_le_mul_right this s0
  have qg2 : g ≤ q * (1 + 1 / 16777216) := by
    have : q * sv ≤ q * (s * (1 + 1 / 16777216)) := mul_le_mul_of_nonneg_left (by linarith) q0
    have : g * s ≤ q * (1 + 1 / 16777216) * s := by linarith
    exact le_of_mul_le_mul_right this s0
  have hr : |rn b32 q - q| ≤ q / 16777216 := by
    rcases yt with h | h
    · have : q = 0 := by rw [hqd, h, zero_div]
      rw [this, rn_zero]; simp
    · have qt : 1 / 16777216 ≤ q := by
        rw [hqd, le_div_iff₀ sp]; linarith
      have := rn_rel_normal (q := q) (by rw [abs_of_nonneg q0]; linarith)
      rwa [abs_of_nonneg q0] at this
  have b2 := abs_le.1 hr
  have hv := FP.ofRat_val (f := b32) (s := X.isNeg ^^ S.isNeg) (q := q) (by
      rw [abs_lt]
      constructor <;> linarith)
  refine ⟨hv.1, ?_⟩
  rw [hv.2, abs_le]
  constructor <;> linarith

/-- The pixel the nearest filter reads for pixel `x` of `n` in a line of `m` pixels. -/
theorem scaledNearest_near [Libm b32] {m n x : Nat} (hm : 0 < m) (hml : m ≤ 2097152) (hx : x < n)
    (hnl : n ≤ 2097152) :
    |(scaledNearest F32 m n x : ℚ) - x * m / n| ≤ 1 / 2 + m / 2097152 := by
  obtain ⟨x1, x2⟩ := nat_exact x (by omega)
  have hm' : (1 : ℚ) ≤ m := by exact_mod_cast hm
  have hml' : (m : ℚ) ≤ 2097152 := by exact_mod_cast hml
  have hx0 : (0 : ℚ) ≤ x := Nat.cast_nonneg x
  have hxn : (x : ℚ) ≤ n := by exact_mod_cast hx.le
  have hn0 : (0 : ℚ) < n := by exact_mod_cast (by omega : 0 < n)
  obtain ⟨d1, d2⟩ := quot_near hm hml (by omega) hnl x1 x2 hx0 hxn (by
    rcases Nat.eq_zero_or_pos x with h | h
    · left; rw [h]; simp
    · right
      have : (1 : ℚ) ≤ x := by exact_mod_cast h
      linarith)
  unfold scaledNearest
  generalize (Scalar.ofNat x /. (Scalar.ofNat n /. Scalar.ofNat m) : F32) = D at *
  have g0 : 0 ≤ (x : ℚ) * m / n := by positivity
  have gm : (x : ℚ) * m / n ≤ m := by rw [div_le_iff₀ hn0]; nlinarith
  generalize (x : ℚ) * m / n = g at *
  have half2 : (lit 0.5 : F32).fin = true ∧ (lit 0.5 : F32).val = 0.5 := by
    show (FP.ofRat b32 false 0.5).fin = true ∧ (FP.ofRat b32 false 0.5).val = 0.5
    decide +kernel
  have e : (D +. lit 0.5 : F32) = FP.add D (lit 0.5) := rfl
  rw [e, FP.add_fin d1 half2.1, half2.2]
  have b := abs_le.1 d2
  obtain ⟨k, hk1, hk2, hk3⟩ := pow_between hm hml
  have hd : |D.val + 0.5| ≤ pow2 ((k + 1 : Nat) : Int) := by
    rw [pow2_nat, abs_le, pow_succ]
    constructor <;> linarith
  have he : b32.emin = -149 := rfl
  have hM : b32.emax = 128 := rfl
  have hp : (b32.prec : ℤ) = 24 := rfl
  have hf := FP.ofRat_small (s := D.isNeg && (lit 0.5 : F32).isNeg) (q := D.val + 0.5) (k := ((k + 1 : Nat) : Int))
    (by omega) (by omega) hd
  have c := rn_err_le (f := b32) (q := D.val + 0.5) (k := ((k + 1 : Nat) : Int)) (by omega) hd
  have hpow : pow2 (((k + 1 : Nat) : ℤ) - b32.prec) / 2 = 2 ^ k / 16777216 := by
    rw [hp, pow2_eq, zpow_sub₀ (by norm_num), zpow_natCast, pow_succ]; norm_num; ring
  rw [hpow] at c
  have c2 := abs_le.1 c
  generalize FP.ofRat b32 (D.isNeg && (lit 0.5 : F32).isNeg) (D.val + 0.5) = T at hf
  have tb : -1 ≤ T.val ∧ T.val ≤ 4194304 := by
    rw [hf.2]; constructor <;> linarith
  have fb := (base_frac_near hf.1 tb.1 tb.2).1
  unfold base at fb
  rw [fb, abs_le]
  have l := Int.floor_le T.val
  have l' := Int.lt_floor_add_one T.val
  rw [hf.2] at l l' ⊢
  constructor <;> linarith

end D10
