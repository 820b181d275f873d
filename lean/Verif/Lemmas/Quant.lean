import Verif.Model.Bytes
import Verif.Lemmas.Histogram
import Mathlib.Tactic.IntervalCases

/-! # Lemmas about quantisation -/

namespace D10
open Scalar (isNan clamp toInt)

/-- Multiplying back a rounded quotient `v / (2^n - 1)` gives `v` again. -/
theorem quant_round {n v : Nat} (hn : n = 8 ∨ n = 16) (hv : v ≤ 2 ^ n - 1) :
    rn b32 (rn b32 ((v : ℚ) / ((2 ^ n - 1 : Nat) : ℚ)) * ((2 ^ n - 1 : Nat) : ℚ)) = v := by
  have hd : 0 < 2 ^ n - 1 := by rcases hn with rfl | rfl <;> norm_num
  have hdq : (0 : ℚ) < ((2 ^ n - 1 : Nat) : ℚ) := by exact_mod_cast hd
  have hn16 : n ≤ 16 := by omega
  have hd16 : 2 ^ n - 1 < 65536 := by rcases hn with rfl | rfl <;> norm_num
  have repv : IsRep b32 (v : ℚ) := by
    have := (FP.int_finite (f := b32) (v : Int) (by
      rw [abs_of_nonneg (by omega)]
      have : (v : Int) ≤ 65536 := by omega
      exact le_trans this (by norm_num [b32]))).1
    simpa using this
  rcases Nat.eq_zero_or_pos v with rfl | hpos
  · simp [rn_zero]
  rcases eq_or_lt_of_le hv with rfl | hlt
  · rw [div_self hdq.ne']
    have : rn b32 1 = 1 := rn_rep (by
      have := (FP.int_finite (f := b32) 1 (by norm_num [b32])).1
      simpa using this)
    rw [this, one_mul, rn_rep repv]
  set k := Nat.log2 v with hk
  have hk1 : 2 ^ k ≤ v := Nat.log2_self_le hpos.ne'
  have hk2 : v < 2 ^ (k + 1) := Nat.lt_log2_self
  have hkn : k < n := by
    by_contra h
    have : 2 ^ n ≤ 2 ^ k := Nat.pow_le_pow_right (by norm_num) (by omega)
    omega
  rcases eq_or_lt_of_le hk1 with hp | hp
  · -- powers of two: a finite table
    rw [← hp]
    rcases hn with rfl | rfl
    · have : ∀ k : Fin 8, rn b32 (rn b32 (((2 ^ k.1 : Nat) : ℚ) / ((2 ^ 8 - 1 : Nat) : ℚ)) *
          ((2 ^ 8 - 1 : Nat) : ℚ)) = ((2 ^ k.1 : Nat) : ℚ) := by decide +kernel
      exact this ⟨k, hkn⟩
    · have : ∀ k : Fin 16, rn b32 (rn b32 (((2 ^ k.1 : Nat) : ℚ) / ((2 ^ 16 - 1 : Nat) : ℚ)) *
          ((2 ^ 16 - 1 : Nat) : ℚ)) = ((2 ^ k.1 : Nat) : ℚ) := by decide +kernel
      exact this ⟨k, hkn⟩
  · have hvq : (0 : ℚ) < v := by exact_mod_cast hpos
    set d : ℚ := ((2 ^ n - 1 : Nat) : ℚ) with hdd
    have hdn : d < pow2 n := by
      rw [pow2_nat, hdd]; exact_mod_cast Nat.sub_lt (by positivity) (by norm_num)
    set q : ℚ := v / d with hq
    have hq0 : 0 < q := by positivity
    have hqk : q < pow2 ((k : Int) - n + 1) := by
      -- `v * 2^n < 2^(k+1) * d`
      rw [hq, div_lt_iff₀ hdq]
      have e : pow2 ((k : Int) - n + 1) = pow2 (k + 1 : Nat) / pow2 (n : Int) := by
        rw [eq_div_iff (pow2_pos _).ne', ← pow2_add]; congr 1; push_cast; ring
      rw [e, div_mul_eq_mul_div, lt_div_iff₀ (pow2_pos _), pow2_nat, pow2_nat]
      have key : v * 2 ^ n < 2 ^ (k + 1) * (2 ^ n - 1) := by
        obtain ⟨j, hj⟩ : ∃ j, n = k + 1 + j := ⟨n - (k + 1), by omega⟩
        have h2 : 1 ≤ 2 ^ n := Nat.one_le_two_pow
        have h3 : 2 ^ n = 2 ^ (k + 1) * 2 ^ j := by rw [hj, pow_add]
        rw [Nat.mul_sub, mul_one]
        have h4 : (v + 1) * 2 ^ n ≤ 2 ^ (k + 1) * 2 ^ n := Nat.mul_le_mul_right _ hk2
        have h5 : 2 ^ (k + 1) ≤ 2 ^ n := by rw [h3]; exact Nat.le_mul_of_pos_right _ (by positivity)
        rcases Nat.eq_zero_or_pos j with rfl | hj0
        · -- `n = k + 1`, `v < 2^n - 1`
          simp only [pow_zero, mul_one] at h3
          have : v + 2 ≤ 2 ^ n := by omega
          rw [← h3] at h4 h5 ⊢
          have := Nat.mul_le_mul_right (2 ^ n) this
          have h6 : 2 ^ n * 2 ^ n - 2 ^ n < 2 ^ n * 2 ^ n := Nat.sub_lt (by positivity) (by positivity)
          have : v * 2 ^ n + 2 * 2 ^ n ≤ 2 ^ n * 2 ^ n := by rw [← Nat.add_mul]; exact this
          omega
        · have h6 : 2 ^ (k + 1) < 2 ^ n := Nat.pow_lt_pow_right (by norm_num) (by omega)
          have : v * 2 ^ n + 2 ^ n ≤ 2 ^ (k + 1) * 2 ^ n := by
            have := h4; rw [Nat.add_mul, one_mul] at this; exact this
          omega
      have : ((v * 2 ^ n : Nat) : ℚ) < ((2 ^ (k + 1) * (2 ^ n - 1) : Nat) : ℚ) := by exact_mod_cast key
      rw [Nat.cast_mul, Nat.cast_mul] at this
      push_cast at this ⊢
      exact this
    have hul : ulpExp b32 q ≤ (k : Int) - n - 23 := by
      have h1 := ilog2_lt hq0.ne' (by rw [abs_of_pos hq0]; exact hqk)
      unfold ulpExp
      have : b32.emin = -149 := rfl
      have : (b32.prec : Int) = 24 := rfl
      omega
    have herr := rn_err b32 q
    have hb : |rn b32 q * d - v| < pow2 ((k : Int) - 24) := by
      have e1 : rn b32 q * d - v = (rn b32 q - q) * d := by rw [hq]; field_simp
      rw [e1, abs_mul, abs_of_pos hdq]
      have e2 : pow2 (ulpExp b32 q) / 2 ≤ pow2 ((k : Int) - n - 24) := by
        have := pow2_le hul
        have e3 : pow2 ((k : Int) - n - 23) = pow2 ((k : Int) - n - 24) * 2 := by
          rw [show (k : Int) - n - 23 = ((k : Int) - n - 24) + 1 by ring, pow2_add]; rfl
        linarith
      calc |rn b32 q - q| * d ≤ pow2 ((k : Int) - n - 24) * d :=
            mul_le_mul_of_nonneg_right (herr.trans e2) hdq.le
        _ < pow2 ((k : Int) - n - 24) * pow2 n := mul_lt_mul_of_pos_left hdn (pow2_pos _)
        _ = pow2 ((k : Int) - 24) := by rw [← pow2_add]; congr 1; ring
    set x := rn b32 q * d with hx
    have hone : pow2 ((k : Int) - 24) < 1 := by
      have : pow2 ((k : Int) - 24) < pow2 0 := pow2_lt_iff.2 (by omega)
      exact this
    rw [abs_lt] at hb
    have hx1 : pow2 k ≤ x := by
      have : (pow2 (k : Int)) + 1 ≤ v := by rw [pow2_nat]; exact_mod_cast hp
      linarith [hb.1]
    have hx2 : x < pow2 ((k : Int) + 1) := by
      have : (v : ℚ) + 1 ≤ pow2 ((k : Int) + 1) := by
        rw [show (k : Int) + 1 = ((k + 1 : Nat) : Int) by push_cast; ring, pow2_nat]
        exact_mod_cast hk2
      linarith [hb.2]
    have hx0 : 0 < x := lt_of_lt_of_le (pow2_pos _) hx1
    have hlog : ilog2 x = k := by
      have a := ilog2_lt hx0.ne' (by rw [abs_of_pos hx0]; exact hx2)
      have b := le_ilog2 hx0.ne' (by rw [abs_of_pos hx0]; exact hx1)
      omega
    have hux : ulpExp b32 x = (k : Int) - 23 := by
      unfold ulpExp
      rw [hlog]
      have : b32.emin = -149 := rfl
      have : (b32.prec : Int) = 24 := rfl
      omega
    unfold rn
    rw [hux]
    have hz : (v : ℚ) = ((v * 2 ^ (23 - k) : Nat) : Int) * pow2 ((k : Int) - 23) := by
      push_cast
      rw [mul_assoc, ← pow2_nat, ← pow2_add]
      have : (((23 - k : Nat) : Int) + ((k : Int) - 23)) = 0 := by omega
      rw [this]; show (v : ℚ) = v * 1; ring
    rw [roundEven_eq (z := ((v * 2 ^ (23 - k) : Nat) : Int))]
    · exact hz.symm
    · have hpp := pow2_pos ((k : Int) - 23)
      have e : x / pow2 ((k : Int) - 23) - (((v * 2 ^ (23 - k) : Nat) : Int) : ℚ) =
          (x - v) / pow2 ((k : Int) - 23) := by
        rw [sub_div]; congr 1
        rw [eq_div_iff hpp.ne']; exact hz.symm
      rw [e, abs_div, abs_of_pos hpp, div_lt_iff₀ hpp]
      have e3 : pow2 ((k : Int) - 23) = pow2 ((k : Int) - 24) * 2 := by
        rw [show (k : Int) - 23 = ((k : Int) - 24) + 1 by ring, pow2_add]; rfl
      rw [abs_lt]
      constructor <;> linarith [hb.1, hb.2]

/-- Casting a rounded number to an unsigned integer. -/
theorem FP.toInt0_ofRat {n : Nat} (hn : n ≤ 65535) (s : Bool) (q : ℚ) :
    FP.toInt 0 n (FP.ofRat b32 s q) = ((min n ⌊rn b32 q⌋₊ : Nat) : Int) := by
  have tr : ∀ r : ℚ, max 0 (min (n : Int) (FP.trunc r)) = ((min n ⌊r⌋₊ : Nat) : Int) := by
    intro r
    unfold FP.trunc
    split
    · rename_i h
      have h1 : ⌈r⌉ ≤ 0 := by rw [Int.ceil_le]; simpa using h.le
      rw [Nat.floor_of_nonpos h.le]
      omega
    · rename_i h
      have h1 := Int.natCast_floor_eq_floor (_root_.not_lt.1 h)
      omega
  by_cases h : |rn b32 q| < pow2 b32.emax
  · have := FP.ofRat_val (s := s) h
    rw [FP.toInt_fin _ _ this.1, this.2, tr]
  · have h0 : rn b32 q ≠ 0 := fun e => h (by rw [e, abs_zero]; exact pow2_pos _)
    unfold FP.ofRat
    rw [dif_neg h0, dif_neg h]
    rw [_root_.not_lt, FP.pow2_b32] at h
    by_cases hq : q < 0
    · simp only [hq, decide_true]
      have h1 : rn b32 q ≤ 0 := by
        have := rn_mono (f := b32) hq.le; rwa [rn_zero] at this
      rw [Nat.floor_of_nonpos h1]
      show (0 : Int) = _
      omega
    · simp only [hq, decide_false]
      have h1 : 0 ≤ rn b32 q := rn_nonneg (_root_.not_lt.1 hq)
      rw [abs_of_nonneg h1] at h
      have : n ≤ ⌊rn b32 q⌋₊ := Nat.le_floor (le_trans (by
        have : (n : ℚ) ≤ 65535 := by exact_mod_cast hn
        linarith) h)
      show (n : Int) = _
      omega

/-- Encoding a finite number. -/
theorem quant_fin [Libm b32] {n : Nat} (hn : n ≤ 65535) {x : F32} (hx : x.fin = true) :
    (Scalar.toInt 0 (n : Int) (Scalar.clamp (Scalar.lit 0) (Scalar.lit (n : ℚ))
      (x *. Scalar.lit (n : ℚ)))).toNat = min n ⌊rn b32 (x.val * n)⌋₊ := by
  rw [LawfulCast.toInt_clamp (n : Int) n _ (by omega) le_rfl]
  have l := FP.lit32 (n : Int) (by rw [abs_of_nonneg (by omega)]; norm_num; omega)
  rw [Int.cast_natCast] at l
  have e : (x *. (Scalar.lit (n : ℚ) : F32)) = FP.mul x (FP.ofRat b32 false (n : ℚ)) := rfl
  rw [e, FP.mul_fin hx l.1, l.2]
  show (FP.toInt 0 n (FP.ofRat b32 _ _)).toNat = _
  rw [FP.toInt0_ofRat hn]
  omega

/-- The decoded level `v / n`. -/
theorem unquant [Libm b32] {n v : Nat} (hn : n ≤ 65535) (h0 : 0 < n) (hv : v ≤ n) :
    ((Scalar.lit (v : ℚ) : F32) /. Scalar.lit (n : ℚ)).fin = true ∧
    ((Scalar.lit (v : ℚ) : F32) /. Scalar.lit (n : ℚ)).val = rn b32 ((v : ℚ) / n) := by
  have l := FP.lit32 (n : Int) (by rw [abs_of_nonneg (by omega)]; norm_num; omega)
  have lv := FP.lit32 (v : Int) (by rw [abs_of_nonneg (by omega)]; norm_num; omega)
  rw [Int.cast_natCast] at l lv
  have e : ((Scalar.lit (v : ℚ) : F32) /. Scalar.lit (n : ℚ)) =
      FP.div (FP.ofRat b32 false (v : ℚ)) (FP.ofRat b32 false (n : ℚ)) := rfl
  have hnq : (0 : ℚ) < n := by exact_mod_cast h0
  rw [e, FP.div_fin lv.1 l.1 (by rw [l.2]; exact hnq.ne'), l.2, lv.2]
  have hle : |(v : ℚ) / n| ≤ 1 := by
    rw [abs_of_nonneg (by positivity), div_le_one hnq]; exact_mod_cast hv
  have := FP.ofRat_unit (s := ((FP.ofRat b32 false (v : ℚ)).isNeg ^^ (FP.ofRat b32 false (n : ℚ)).isNeg)) hle
  exact ⟨this.1, this.2.1⟩

/-- Encoding is monotone. -/
theorem quant_mono [Libm b32] {n : Nat} (hn : n ≤ 65535) (h0 : 0 < n) {x y : F32}
    (h : (x <=. y) = true) :
    (Scalar.toInt 0 (n : Int) (Scalar.clamp (Scalar.lit 0) (Scalar.lit (n : ℚ))
      (x *. Scalar.lit (n : ℚ)))).toNat ≤
    (Scalar.toInt 0 (n : Int) (Scalar.clamp (Scalar.lit 0) (Scalar.lit (n : ℚ))
      (y *. Scalar.lit (n : ℚ)))).toNat := by
  have hnq : (0 : ℚ) < n := by exact_mod_cast h0
  have l := FP.lit32 (n : Int) (by rw [abs_of_nonneg (by omega)]; norm_num; omega)
  rw [Int.cast_natCast] at l
  have hl : ∃ hh, FP.ofRat b32 false (n : ℚ) = FP.num (n : ℚ) hh := by
    cases hc : FP.ofRat b32 false (n : ℚ) with
    | nan => rw [hc] at l; simp [FP.fin] at l
    | inf s => rw [hc] at l; simp [FP.fin] at l
    | zero s => rw [hc] at l; exact absurd l.2.symm hnq.ne'
    | num q hh => rw [hc] at l; obtain rfl : q = n := l.2; exact ⟨hh, rfl⟩
  obtain ⟨hh, hl⟩ := hl
  have hinf : ∀ s, (FP.inf s : F32) *. (Scalar.lit (n : ℚ)) = FP.inf s := by
    intro s
    show FP.mul (FP.inf s) (FP.ofRat b32 false (n : ℚ)) = _
    rw [hl]
    show FP.inf (s ^^ FP.isNeg (FP.num (n : ℚ) hh)) = _
    have : FP.isNeg (FP.num (n : ℚ) hh) = false := by
      show decide ((n : ℚ) < 0) = false
      simp
    rw [this]; simp
  have tinf : ∀ s, (Scalar.toInt 0 (n : Int) (Scalar.clamp (Scalar.lit 0) (Scalar.lit (n : ℚ))
      ((FP.inf s : F32) *. Scalar.lit (n : ℚ)))).toNat = if s then 0 else n := by
    intro s
    rw [hinf, LawfulCast.toInt_clamp (n : Int) n _ (by omega) le_rfl]
    cases s
    · show ((n : Int)).toNat = _; simp
    · rfl
  have hle : ∀ z : F32, (Scalar.toInt 0 (n : Int) (Scalar.clamp (Scalar.lit 0) (Scalar.lit (n : ℚ))
      (z *. Scalar.lit (n : ℚ)))).toNat ≤ n := by
    intro z
    have := (LawfulCast.toInt_range (F := F32) 0 (n : Int) (Scalar.clamp (Scalar.lit 0)
      (Scalar.lit (n : ℚ)) (z *. Scalar.lit (n : ℚ))) le_rfl (by omega)).2
    omega
  rcases FP.kinds x with rfl | ⟨s, rfl⟩ | hx
  · rw [FP.le_def] at h; simp [FP.lt, FP.eq] at h
  · cases s
    · rcases FP.kinds y with rfl | ⟨t, rfl⟩ | hy
      · rw [FP.le_def] at h; simp [FP.lt, FP.eq] at h
      · cases t
        · exact le_rfl
        · rw [FP.le_def] at h; simp [FP.lt, FP.eq] at h
      · rw [FP.le_inf_fin hy] at h; cases h
    · rw [tinf]; exact Nat.zero_le _
  · rcases FP.kinds y with rfl | ⟨t, rfl⟩ | hy
    · rw [FP.le_def] at h; cases x <;> simp [FP.lt, FP.eq] at h
    · cases t
      · rw [tinf]; exact hle x
      · rw [FP.le_fin_inf hx] at h; cases h
    · rw [quant_fin hn hx, quant_fin hn hy]
      rw [FP.le_fin hx hy, decide_eq_true_iff] at h
      have : ⌊rn b32 (x.val * n)⌋₊ ≤ ⌊rn b32 (y.val * n)⌋₊ :=
        Nat.floor_mono (rn_mono (mul_le_mul_of_nonneg_right h hnq.le))
      omega

end D10
