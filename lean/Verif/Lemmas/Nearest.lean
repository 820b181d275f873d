import Verif.Lemmas.Coords
import Verif.Lemmas.SumFloat
import Verif.SpecSample
import Mathlib.Tactic.Linarith
import Mathlib.Tactic.FieldSimp

/-!
# Where the nearest filter reads when an image is enlarged or reduced by a whole factor
-/

namespace D10
open Spec

theorem half_rep (j : Int) (hj : |j| ≤ 4194304) : IsRep b32 ((j : ℚ) - 1 / 2) := by
  refine ⟨2 * j - 1, -1, ?_, by decide, ?_⟩
  · have : |2 * j - 1| < 16777216 := by rw [abs_le] at hj; rw [abs_lt]; omega
    simpa [b32] using this
  · have : pow2 (-1) = 1 / 2 := by decide +kernel
    rw [this]; push_cast; ring

/-- Adding one half and rounding down, for a number that is clearly nearest to `j`. -/
theorem floor_half [Libm b32] {d : F32} (hd : d.fin = true) {j : Nat} (hj : j ≤ 2097152)
    (h0 : (j : ℚ) - 1 / 2 ≤ d.val) (h1 : d.val + 1 / 2 ≤ (j + 1) - (j + 1) / 16777216) :
    Scalar.asI32 (Scalar.floor (d +. lit 0.5 : F32)) = (j : Int) := by
  have hj' : (j : ℚ) ≤ 2097152 := by exact_mod_cast hj
  have hj0 : (0 : ℚ) ≤ j := Nat.cast_nonneg j
  have half2 : (lit 0.5 : F32).fin = true ∧ (lit 0.5 : F32).val = 0.5 := by
    show (FP.ofRat b32 false 0.5).fin = true ∧ (FP.ofRat b32 false 0.5).val = 0.5
    decide +kernel
  have e : (d +. lit 0.5 : F32) = FP.add d (lit 0.5) := rfl
  rw [e, FP.add_fin hd half2.1, half2.2]
  have r := FP.int_finite (f := b32) (j : Int) (by
    rw [abs_of_nonneg (by omega)]; have : (b32.prec) = 24 := rfl; rw [this]; norm_num; omega)
  have l1 := rep_le_rn r.1 (show ((j : Int) : ℚ) ≤ d.val + 0.5 by push_cast; linarith)
  have l2 : rn b32 (d.val + 0.5) < (j : ℚ) + 1 := by
    rcases eq_or_lt_of_le (show 0 ≤ d.val + 0.5 by linarith) with hz | hz
    · rw [← hz, rn_zero]; linarith
    · by_cases hs : d.val + 0.5 ≤ 1 / 2
      · have := rn_le_rep (IsRep.pow2 (f := b32) (k := -1) (by decide)) (q := d.val + 0.5)
          (by have : pow2 (-1) = 1 / 2 := by decide +kernel
              rw [this]; exact hs)
        have h2 : pow2 (-1) = 1 / 2 := by decide +kernel
        rw [h2] at this; linarith
      · have := rn_rel_normal (q := d.val + 0.5) (by
          rw [abs_of_pos hz]
          have : pow2 (-126) ≤ pow2 (-1) := pow2_le (by norm_num)
          have h2 : pow2 (-1) = 1 / 2 := by decide +kernel
          linarith)
        rw [abs_of_pos hz] at this
        have := (abs_le.1 this).2
        norm_num at *
        linarith
  have hv := FP.ofRat_val (f := b32) (s := d.isNeg && (lit 0.5 : F32).isNeg) (q := d.val + 0.5)
    (by
      push_cast at l1
      rw [abs_of_nonneg (by linarith)]
      have r2 := FP.int_finite (f := b32) 4194304 (by decide)
      have := r2.2
      rw [abs_of_nonneg (by norm_num)] at this
      push_cast at this; linarith)
  have := FP.asI32_floor hv.1 r r (by rw [hv.2]; exact l1) (by rw [hv.2]; push_cast; linarith)
    (by omega) (by omega)
  unfold base at this
  omega

theorem nat_exact [Libm b32] (n : Nat) (h : n ≤ 16777216) :
    (Scalar.ofNat n : F32).fin = true ∧ (Scalar.ofNat n : F32).val = n := by
  have r := FP.int_finite (f := b32) (n : Int) (by
    rw [abs_of_nonneg (by omega)]; have : (b32.prec) = 24 := rfl; rw [this]; norm_num; omega)
  have := FP.ofRat_rep (s := false) r.1 r.2
  push_cast at this
  exact this

theorem enlarge_f32 [Libm b32] {m k x : Nat} (hm : 0 < m) (hx : x < k * m) (hl : k * m ≤ 2097152) :
    scaledNearest F32 m (k * m) x = (((2 * x + k) / (2 * k) : Nat) : Int) := by
  have hk : 0 < k := Nat.pos_of_ne_zero (by rintro rfl; simp at hx)
  have hml : m ≤ 2097152 := le_trans (Nat.le_mul_of_pos_left m hk) hl
  have hkl : k ≤ 2097152 := le_trans (Nat.le_mul_of_pos_right k hm) hl
  obtain ⟨n1, n2⟩ := nat_exact (k * m) (by omega)
  obtain ⟨m1, m2⟩ := nat_exact m (by omega)
  obtain ⟨x1, x2⟩ := nat_exact x (by omega)
  have hm' : (0 : ℚ) < m := by exact_mod_cast hm
  have hk' : (1 : ℚ) ≤ k := by exact_mod_cast hk
  obtain ⟨s1, s2⟩ : (Scalar.ofNat (k * m) /. Scalar.ofNat m : F32).fin = true ∧
      (Scalar.ofNat (k * m) /. Scalar.ofNat m : F32).val = k := by
    have e : (Scalar.ofNat (k * m) /. Scalar.ofNat m : F32) =
      FP.div (Scalar.ofNat (k * m)) (Scalar.ofNat m) := rfl
    rw [e, FP.div_fin n1 m1 (by rw [m2]; linarith), n2, m2]
    have : ((k * m : Nat) : ℚ) / m = ((k : Int) : ℚ) := by push_cast; field_simp
    rw [this]
    have r := FP.int_finite (f := b32) (k : Int) (by
      rw [abs_of_nonneg (by omega)]; have : (b32.prec) = 24 := rfl; rw [this]; norm_num; omega)
    have := FP.ofRat_rep (s := (Scalar.ofNat (k * m) : F32).isNeg ^^ (Scalar.ofNat m : F32).isNeg) r.1 r.2
    exact_mod_cast this
  unfold scaledNearest
  generalize (Scalar.ofNat (k * m) /. Scalar.ofNat m : F32) = S at s1 s2
  have e : (Scalar.ofNat x /. S : F32) = FP.div (Scalar.ofNat x) S := rfl
  rw [e, FP.div_fin x1 s1 (by rw [s2]; linarith), x2, s2]
  generalize hj : (2 * x + k) / (2 * k) = j
  have hd1 : 2 * k * j ≤ 2 * x + k := by rw [← hj]; exact Nat.mul_div_le _ _
  have hd2 : 2 * x + k + 1 ≤ 2 * k * (j + 1) := by
    rw [← hj]; exact Nat.lt_mul_div_succ _ (by omega)
  have hd1' : 2 * (k : ℚ) * j ≤ 2 * x + k := by exact_mod_cast hd1
  have hd2' : 2 * (x : ℚ) + k + 1 ≤ 2 * k * (j + 1) := by exact_mod_cast hd2
  have hjx : j ≤ x + 1 := by
    rw [← hj]; apply Nat.div_le_of_le_mul; nlinarith
  have hx' : (x : ℚ) + 1 ≤ 2097152 := by exact_mod_cast (by omega : x + 1 ≤ 2097152)
  have hx0 : (0 : ℚ) ≤ x := Nat.cast_nonneg x
  have hj0 : (0 : ℚ) ≤ j := Nat.cast_nonneg j
  have q0 : (0 : ℚ) ≤ x / k := by positivity
  have qx : (x : ℚ) / k ≤ x := div_le_self hx0 hk'
  have qk : (x : ℚ) / k * k = x := by field_simp
  have lo : (j : ℚ) - 1 / 2 ≤ x / k := by
    rw [le_div_iff₀ (by linarith)]; linarith
  have hi : (x : ℚ) / k + 1 / 2 ≤ j + 1 - 1 / (2 * k) := by
    have : 1 / (2 * (k : ℚ)) * (2 * k) = 1 := by field_simp
    nlinarith
  have hr : |rn b32 ((x : ℚ) / k) - x / k| ≤ x / k / 16777216 := by
    rcases eq_or_lt_of_le q0 with hz | hz
    · rw [← hz, rn_zero]; simp
    · have := rn_rel_normal (q := (x : ℚ) / k) (by
        rw [abs_of_pos hz]
        have h1 : (1 : ℚ) ≤ x := by
          have : 0 < x := by
            rcases Nat.eq_zero_or_pos x with h | h
            · rw [h] at hz; simp at hz
            · exact h
          exact_mod_cast this
        have h2 : pow2 (-126) ≤ pow2 (-22) := pow2_le (by norm_num)
        have h3 : pow2 (-22) = 1 / 4194304 := by decide +kernel
        have h4 : (k : ℚ) ≤ 2097152 := by exact_mod_cast hkl
        rw [le_div_iff₀ (by linarith)]
        have h5 : pow2 (-126) * (k : ℚ) ≤ 1 / 4194304 * k :=
          mul_le_mul_of_nonneg_right (by linarith) (by linarith)
        linarith)
      rwa [abs_of_pos hz] at this
  have hv := FP.ofRat_val (f := b32) (s := (Scalar.ofNat x : F32).isNeg ^^ S.isNeg) (q := (x : ℚ) / k) (by
      have := abs_le.1 hr
      rw [abs_lt]
      have r2 := FP.int_finite (f := b32) 4194304 (by decide)
      have := r2.2
      rw [abs_of_nonneg (by norm_num)] at this
      push_cast at this
      constructor <;> linarith)
  refine floor_half hv.1 (by omega) ?_ ?_
  · rw [hv.2]
    have := half_rep (j : Int) (by rw [abs_of_nonneg (by omega)]; omega)
    exact rep_le_rn (by exact_mod_cast this) lo
  · rw [hv.2]
    have := (abs_le.1 hr).2
    -- the room left is `1 / (2 k)`
    have hroom : ((j : ℚ) + 1) / 16777216 + x / k / 16777216 ≤ 1 / (2 * k) := by
      rw [le_div_iff₀ (by linarith)]
      have hkm : (k : ℚ) ≤ 2097152 := by exact_mod_cast hkl
      have e : (((j : ℚ) + 1) / 16777216 + x / k / 16777216) * (2 * k) =
          (2 * k * j + 2 * k + 2 * (x / k * k)) / 16777216 := by ring
      rw [e, qk]
      linarith
    linarith

theorem reduce_f32 [Libm b32] {m k x : Nat} (hk : 0 < k) (hx : x < m) (hl : k * m ≤ 2097152) :
    scaledNearest F32 (k * m) m x = ((k * x : Nat) : Int) := by
  have hm : 0 < m := by omega
  have hml : m ≤ 2097152 := le_trans (Nat.le_mul_of_pos_left m hk) hl
  have hkl : k ≤ 2097152 := le_trans (Nat.le_mul_of_pos_right k hm) hl
  have hkx : k * x + k ≤ 2097152 := le_trans (by nlinarith) hl
  obtain ⟨n1, n2⟩ := nat_exact (k * m) (by omega)
  obtain ⟨m1, m2⟩ := nat_exact m (by omega)
  obtain ⟨x1, x2⟩ := nat_exact x (by omega)
  have hm' : (1 : ℚ) ≤ m := by exact_mod_cast hm
  have hk' : (1 : ℚ) ≤ k := by exact_mod_cast hk
  have hkl' : (k : ℚ) ≤ 2097152 := by exact_mod_cast hkl
  have hkx' : (k : ℚ) * x + k ≤ 2097152 := by exact_mod_cast hkx
  have hx0 : (0 : ℚ) ≤ x := Nat.cast_nonneg x
  have ki0 : (0 : ℚ) < 1 / k := by positivity
  have ki1 : (1 : ℚ) / k * k = 1 := by field_simp
  have hpk : pow2 (-126) ≤ (1 : ℚ) / k := by
    have h2 : pow2 (-126) ≤ pow2 (-22) := pow2_le (by norm_num)
    have h3 : pow2 (-22) = 1 / 4194304 := by decide +kernel
    rw [le_div_iff₀ (by linarith)]
    have h5 : pow2 (-126) * (k : ℚ) ≤ 1 / 4194304 * k :=
      mul_le_mul_of_nonneg_right (by linarith) (by linarith)
    linarith
  have hs : |rn b32 ((1 : ℚ) / k) - 1 / k| ≤ 1 / k / 16777216 := by
    have := rn_rel_normal (q := (1 : ℚ) / k) (by rwa [abs_of_pos ki0])
    rwa [abs_of_pos ki0] at this
  have big : (4194304 : ℚ) < pow2 b32.emax := by
    have r2 := FP.int_finite (f := b32) 4194304 (by decide)
    have := r2.2
    rw [abs_of_nonneg (by norm_num)] at this
    exact_mod_cast this
  obtain ⟨s1, s2⟩ : (Scalar.ofNat m /. Scalar.ofNat (k * m) : F32).fin = true ∧
      (Scalar.ofNat m /. Scalar.ofNat (k * m) : F32).val = rn b32 (1 / k) := by
    have e : (Scalar.ofNat m /. Scalar.ofNat (k * m) : F32) =
      FP.div (Scalar.ofNat m) (Scalar.ofNat (k * m)) := rfl
    rw [e, FP.div_fin m1 n1 (by rw [n2]; push_cast; nlinarith), n2, m2]
    have : (m : ℚ) / ((k * m : Nat) : ℚ) = 1 / k := by push_cast; field_simp
    rw [this]
    refine FP.ofRat_val ?_
    have := abs_le.1 hs
    have k1 : (1 : ℚ) / k ≤ 1 := by rw [div_le_iff₀ (by linarith)]; linarith
    rw [abs_lt]
    constructor <;> linarith
  unfold scaledNearest
  generalize (Scalar.ofNat m /. Scalar.ofNat (k * m) : F32) = S at s1 s2
  rw [← s2] at hs
  generalize hSv : S.val = sv at *
  have b := abs_le.1 hs
  have sp : 0 < sv := by linarith
  have sk0 : 1 - 1 / 16777216 ≤ sv * k := by
    have : (1 / (k : ℚ) - 1 / k / 16777216) * k ≤ sv * k :=
      mul_le_mul_of_nonneg_right (by linarith) (by linarith)
    have e : (1 / (k : ℚ) - 1 / k / 16777216) * k = 1 - 1 / 16777216 := by field_simp
    linarith
  have sk1 : sv * k ≤ 1 + 1 / 16777216 := by
    have : sv * k ≤ (1 / (k : ℚ) + 1 / k / 16777216) * k :=
      mul_le_mul_of_nonneg_right (by linarith) (by linarith)
    have e : (1 / (k : ℚ) + 1 / k / 16777216) * k = 1 + 1 / 16777216 := by field_simp
    linarith
  have e : (Scalar.ofNat x /. S : F32) = FP.div (Scalar.ofNat x) S := rfl
  rw [e, FP.div_fin x1 s1 (by rw [hSv]; linarith), x2, hSv]
  have hq : (x : ℚ) / sv * sv = x := by field_simp
  generalize hqq : (x : ℚ) / sv = q at *
  have q0 : 0 ≤ q := by rw [← hqq]; positivity
  -- q lies within a millionth part of k x
  have u : q * (1 - 1 / 16777216) ≤ k * x := by
    have : q * (1 - 1 / 16777216) ≤ q * (sv * k) := mul_le_mul_of_nonneg_left sk0 q0
    have e : q * (sv * k) = k * x := by rw [← hq]; ring
    linarith
  have l : k * x ≤ q * (1 + 1 / 16777216) := by
    have : q * (sv * k) ≤ q * (1 + 1 / 16777216) := mul_le_mul_of_nonneg_left sk1 q0
    have e : q * (sv * k) = k * x := by rw [← hq]; ring
    linarith
  have hr : |rn b32 q - q| ≤ q / 16777216 := by
    rcases eq_or_lt_of_le q0 with hz | hz
    · rw [← hz, rn_zero]; simp
    · have := rn_rel_normal (q := q) (by
        rw [abs_of_pos hz]
        have h1 : (1 : ℚ) ≤ x := by
          have : 0 < x := by
            rcases Nat.eq_zero_or_pos x with h | h
            · rw [h] at hqq; simp at hqq; linarith
            · exact h
          exact_mod_cast this
        have h2 : pow2 (-126) ≤ pow2 (-1) := pow2_le (by norm_num)
        have h3 : pow2 (-1) = 1 / 2 := by decide +kernel
        have : (1 : ℚ) ≤ k * x := by nlinarith
        linarith)
      rwa [abs_of_pos hz] at this
  have b2 := abs_le.1 hr
  have hv := FP.ofRat_val (f := b32) (s := (Scalar.ofNat x : F32).isNeg ^^ S.isNeg) (q := q) (by
      rw [abs_lt]
      constructor <;> linarith)
  refine floor_half hv.1 (by omega) ?_ ?_
  · rw [hv.2]; push_cast; linarith
  · rw [hv.2]; push_cast; linarith

variable [Junk]

theorem nearest_exact {m n x j : Nat} (hm : 0 < m) (hn : x < n) (hj : j ≤ 1073741824)
    (h0 : 2 * n * j ≤ 2 * x * m + n) (h1 : 2 * x * m + n < 2 * n * (j + 1)) :
    scaledNearest ℝ m n x = (j : Int) := by
  have hn0 : (0 : ℝ) < n := by exact_mod_cast (by omega : 0 < n)
  have hmp : (0 : ℝ) < m := by exact_mod_cast hm
  have h0' : 2 * (n : ℝ) * j ≤ 2 * x * m + n := by exact_mod_cast h0
  have h1' : 2 * (x : ℝ) * m + n < 2 * n * (j + 1) := by exact_mod_cast h1
  have pos : (Scalar.ofNat x /. (Scalar.ofNat n /. Scalar.ofNat m) +. lit 0.5 : ℝ) =
      (2 * x * m + n) / (2 * n) := by
    rw [Exact.scale_eq m n hm, Exact.add, Exact.div (by positivity)]
    unfold Scalar.ofNat
    rw [Exact.lit, Exact.lit]
    push_cast
    rw [div_div_eq_mul_div]; field_simp; norm_num; ring
  unfold scaledNearest
  rw [pos]
  unfold Scalar.asI32
  rw [Exact.floor, Exact.toInt_int]
  have f : ⌊(2 * (x : ℝ) * m + n) / (2 * n)⌋ = (j : Int) := by
    rw [Int.floor_eq_iff]
    push_cast
    constructor
    · rw [le_div_iff₀ (by linarith)]; linarith
    · rw [div_lt_iff₀ (by linarith)]; linarith
  rw [f]; omega

theorem enlarge_exact {m k x : Nat} (hm : 0 < m) (hx : x < k * m) (hl : m ≤ 1073741823) :
    scaledNearest ℝ m (k * m) x = (((2 * x + k) / (2 * k) : Nat) : Int) := by
  have hk : 0 < k := Nat.pos_of_ne_zero (by rintro rfl; simp at hx)
  have hd1 := Nat.mul_div_le (2 * x + k) (2 * k)
  have hd2 := Nat.lt_mul_div_succ (2 * x + k) (show 0 < 2 * k by omega)
  refine nearest_exact hm hx ?_ ?_ ?_
  · have : (2 * x + k) / (2 * k) < m + 1 := by
      rw [Nat.div_lt_iff_lt_mul (by omega)]; nlinarith
    omega
  · calc 2 * (k * m) * ((2 * x + k) / (2 * k)) = (2 * k * ((2 * x + k) / (2 * k))) * m := by ring
      _ ≤ (2 * x + k) * m := Nat.mul_le_mul_right m hd1
      _ = _ := by ring
  · calc 2 * x * m + k * m = (2 * x + k) * m := by ring
      _ < (2 * k * ((2 * x + k) / (2 * k) + 1)) * m := Nat.mul_lt_mul_of_pos_right hd2 hm
      _ = _ := by ring

theorem reduce_exact {m k x : Nat} (hk : 0 < k) (hx : x < m) (hl : k * m ≤ 1073741823) :
    scaledNearest ℝ (k * m) m x = ((k * x : Nat) : Int) := by
  have h : k * x ≤ k * m := Nat.mul_le_mul_left k hx.le
  refine nearest_exact (Nat.mul_pos hk (by omega)) hx (by omega) ?_ ?_ <;> nlinarith

end D10
