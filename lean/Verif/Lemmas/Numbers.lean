import Verif.Props.RangeRun
import Verif.Props.ColorRange
import Verif.SpecNumbers
import Verif.Lemmas.Coords
import Mathlib.Tactic.Positivity

/-!
# Which operations give numbers

`Bd k x`: `x` is finite and not larger than `2 ^ k`. Sums, products and quotients of bounded numbers are
bounded, so nothing overflows; a sum, a product or a quotient is "not a number" only in few cases.
-/

namespace D10
open Scalar (lit)
open Spec

/-- Finite and not larger than `2 ^ k`. -/
structure Bd (k : ℕ) (x : F32) : Prop where
  fin : x.fin = true
  le : |x.val| ≤ 2 ^ k

namespace Bd

theorem ofRat {k : ℕ} (hk : k ≤ 127) {s : Bool} {q : ℚ} (h : |q| ≤ 2 ^ k) : Bd k (FP.ofRat b32 s q) := by
  have e : (2 : ℚ) ^ k = pow2 (k : Int) := (pow2_nat k).symm
  have hr : IsRep b32 ((2 : ℚ) ^ k) := by
    rw [e]; exact IsRep.pow2 (by show (-149 : Int) ≤ k; omega)
  have hl : (2 : ℚ) ^ k < pow2 b32.emax := by
    rw [e]; exact pow2_lt_iff.2 (by show (k : Int) < 128; omega)
  have v := FP.ofRat_of_le (s := s) hr hl h
  refine ⟨v.1, ?_⟩
  rw [v.2]
  exact rn_abs_le hr h

theorem mono {k m : ℕ} {x : F32} (h : Bd k x) (hm : k ≤ m) : Bd m x :=
  ⟨h.fin, h.le.trans (pow_le_pow_right₀ (by norm_num) hm)⟩

theorem neg {k : ℕ} {x : F32} (h : Bd k x) : Bd k (FP.neg x) := by
  have n := FP.neg_fin h.fin
  exact ⟨n.1, by rw [n.2, abs_neg]; exact h.le⟩

theorem abs {k : ℕ} {x : F32} (h : Bd k x) : Bd k (FP.abs x) := by
  have n := FP.abs_fin h.fin
  exact ⟨n.1, by rw [n.2, abs_abs]; exact h.le⟩

theorem add {k l m : ℕ} {x y : F32} (hx : Bd k x) (hy : Bd l y) (h1 : k < m) (h2 : l < m) (hm : m ≤ 127) :
    Bd m (FP.add x y) := by
  rw [FP.add_fin hx.fin hy.fin]
  obtain ⟨n, rfl⟩ : ∃ n, m = n + 1 := ⟨m - 1, by omega⟩
  refine ofRat hm ((abs_add_le _ _).trans ?_)
  have a := (hx.mono (m := n) (by omega)).le
  have b := (hy.mono (m := n) (by omega)).le
  rw [pow_succ]; linarith

theorem sub {k l m : ℕ} {x y : F32} (hx : Bd k x) (hy : Bd l y) (h1 : k < m) (h2 : l < m) (hm : m ≤ 127) :
    Bd m (FP.sub x y) := hx.add hy.neg h1 h2 hm

theorem mul {k l m : ℕ} {x y : F32} (hx : Bd k x) (hy : Bd l y) (h : k + l ≤ m) (hm : m ≤ 127) :
    Bd m (FP.mul x y) := by
  rw [FP.mul_fin hx.fin hy.fin]
  refine ofRat hm ?_
  rw [abs_mul]
  refine (mul_le_mul hx.le hy.le (abs_nonneg _) (by positivity)).trans ?_
  rw [← pow_add]
  exact pow_le_pow_right₀ (by norm_num) h

theorem div {k j m : ℕ} {x y : F32} (hx : Bd k x) (hy : y.fin = true) (h0 : 1 / 2 ^ j ≤ |y.val|)
    (h : k + j ≤ m) (hm : m ≤ 127) : Bd m (FP.div x y) := by
  have p : (0 : ℚ) < 1 / 2 ^ j := by positivity
  rw [FP.div_fin hx.fin hy (abs_pos.1 (lt_of_lt_of_le p h0))]
  refine ofRat hm ?_
  rw [abs_div, div_le_iff₀ (lt_of_lt_of_le p h0)]
  have : (2 : ℚ) ^ k ≤ 2 ^ m * (1 / 2 ^ j) := by
    rw [mul_one_div, le_div_iff₀ (by positivity), ← pow_add]
    exact pow_le_pow_right₀ (by norm_num) h
  exact hx.le.trans (this.trans (mul_le_mul_of_nonneg_left h0 (by positivity)))

theorem unit {x : F32} (h : x.fin = true ∧ 0 ≤ x.val ∧ x.val ≤ 1) : Bd 0 x :=
  ⟨h.1, by rw [abs_of_nonneg h.2.1]; simpa using h.2.2⟩

theorem number {k : ℕ} {x : F32} (h : Bd k x) : x ≠ .nan := fun e => by
  have := h.fin; rw [e] at this; cases this

theorem floor {k : ℕ} (hk : k ≤ 99) {x : F32} (h : Bd k x) : Bd k (FP.integral Int.floor x) := by
  have l := abs_le.1 h.le
  have c : ((2 ^ k : Int) : ℚ) = 2 ^ k := by push_cast; rfl
  have r := rep_b32 (2 ^ k) 1 k (by ring) (by norm_num) (by omega)
  have r' := rep_b32 (-2 ^ k) (-1) k (by ring) (by norm_num) (by omega)
  have b := FP.floor_bounds h.fin (a := -2 ^ k) (b := 2 ^ k) r'.1 r.1 r'.2 r.2
    (Int.le_floor.2 (by push_cast; exact l.1))
    (Int.cast_le.1 ((Int.floor_le x.val).trans (by push_cast; exact l.2))) _ rfl
  exact ⟨b.1, abs_le.2 ⟨by simpa using b.2.1, by simpa using b.2.2⟩⟩

end Bd

/-! ## When a result is a number -/

theorem fin_number {x : F32} (h : x.fin = true) : x ≠ .nan := fun e => by rw [e] at h; cases h

theorem add_number {x y : F32} (hx : x.fin = true) (hy : y ≠ .nan) : FP.add x y ≠ .nan := by
  rcases FP.kinds y with e | ⟨s, rfl⟩ | e
  · exact absurd e hy
  · cases x with
    | nan => cases hx
    | inf _ => cases hx
    | zero _ => simp [FP.add]
    | num _ _ => simp [FP.add]
  · rw [FP.add_fin hx e]; exact FP.ofRat_not_nan

theorem add_number' {x y : F32} (hx : x ≠ .nan) (hy : y.fin = true) : FP.add x y ≠ .nan := by
  rcases FP.kinds x with e | ⟨s, rfl⟩ | e
  · exact absurd e hx
  · cases y with
    | nan => cases hy
    | inf _ => cases hy
    | zero _ => simp [FP.add]
    | num _ _ => simp [FP.add]
  · rw [FP.add_fin e hy]; exact FP.ofRat_not_nan

theorem sub_number {x y : F32} (hx : x.fin = true) (hy : y.fin = true) : FP.sub x y ≠ .nan := by
  rw [FP.sub_fin hx hy]; exact FP.ofRat_not_nan

theorem mul_number {x y : F32} (hx : x.fin = true) (hy : y.fin = true) : FP.mul x y ≠ .nan := by
  rw [FP.mul_fin hx hy]; exact FP.ofRat_not_nan

/-- A number divided by a finite number that is not zero. -/
theorem div_number {x y : F32} (hx : x ≠ .nan) (hy : y.fin = true) (h0 : y.val ≠ 0) : FP.div x y ≠ .nan := by
  rcases FP.kinds x with e | ⟨s, rfl⟩ | e
  · exact absurd e hx
  · cases y with
    | nan => cases hy
    | inf _ => cases hy
    | zero _ => exact absurd rfl h0
    | num _ _ => simp [FP.div]
  · rw [FP.div_fin e hy h0]; exact FP.ofRat_not_nan

/-- One divided by anything but "not a number". -/
theorem recip_number {y : F32} (hy : y ≠ .nan) : FP.div (FP.ofRat b32 false 1) y ≠ .nan := by
  have one := one32
  cases hx : FP.ofRat b32 false 1 with
  | nan => rw [hx] at one; cases one.1
  | inf _ => rw [hx] at one; cases one.1
  | zero _ => rw [hx] at one; exact absurd one.2 (by simp [FP.val])
  | num q h =>
    cases y with
    | nan => exact absurd rfl hy
    | inf _ => simp [FP.div]
    | zero _ => simp [FP.div]
    | num r hr => simp only [FP.div]; exact FP.ofRat_not_nan

/-- The largest finite number. -/
theorem largest : IsRep b32 (340282346638528859811704183484516925440 : ℚ) ∧
    rn b32 (340282346638528859811704183484516925440 + 1) = 340282346638528859811704183484516925440 ∧
    (340282346638528859811704183484516925440 : ℚ) < pow2 b32.emax := by
  refine ⟨⟨16777215, 104, by decide, by decide, by decide +kernel⟩, by decide +kernel, by decide +kernel⟩

theorem fin_le_largest {x : F32} (h : x.fin = true) : |x.val| ≤ 340282346638528859811704183484516925440 := by
  obtain ⟨⟨m, e, hm, he, hq⟩, hl⟩ := FP.fin_rep h
  by_contra hc
  push Not at hc
  rw [hq, abs_mul, abs_of_pos (pow2_pos e)] at hc hl
  have hm' : |(m : ℚ)| ≤ 16777215 := by
    have : |m| ≤ 16777215 := by
      have : |m| < 16777216 := hm
      omega
    exact_mod_cast this
  have big : (340282346638528859811704183484516925440 : ℚ) = 16777215 * pow2 104 := by decide +kernel
  have he' : 104 < e := by
    by_contra hle
    have : pow2 e ≤ pow2 104 := pow2_le (by omega)
    have : |(m : ℚ)| * pow2 e ≤ 16777215 * pow2 104 :=
      mul_le_mul hm' this (pow2_pos e).le (by norm_num)
    rw [big] at hc
    linarith
  have h105 : pow2 105 ≤ pow2 e := pow2_le (by omega)
  have split105 : pow2 e = pow2 (e - 105) * pow2 105 := by rw [← pow2_add]; congr 1; omega
  obtain ⟨k, hk⟩ := pow2_int (a := e - 105) (by omega)
  have e128 : pow2 b32.emax = 8388608 * pow2 105 := by decide +kernel
  rw [split105, hk, e128] at hl
  rw [split105, hk, big, show pow2 105 = 2 * pow2 104 by decide +kernel] at hc
  have p104 : 0 < pow2 104 := pow2_pos _
  rw [show pow2 105 = 2 * pow2 104 by decide +kernel] at hl
  have a1 : |(m : ℚ)| * k < 8388608 := by
    have : |(m : ℚ)| * k * (2 * pow2 104) < 8388608 * (2 * pow2 104) := by linarith
    exact lt_of_mul_lt_mul_right this (by positivity)
  have a2 : (16777215 : ℚ) < |(m : ℚ)| * k * 2 := by
    have : 16777215 * pow2 104 < |(m : ℚ)| * k * 2 * pow2 104 := by linarith
    exact lt_of_mul_lt_mul_right this p104.le
  have b1 : |m| * k < 8388608 := by exact_mod_cast a1
  have b2 : 16777215 < |m| * k * 2 := by exact_mod_cast a2
  omega

/-- Adding at most 1 does not overflow. -/
theorem add_small {x y : F32} (hx : x.fin = true) (hy : y.fin = true) (h : |y.val| ≤ 1) :
    (FP.add x y).fin = true := by
  rw [FP.add_fin hx hy]
  have l := abs_le.1 (fin_le_largest hx)
  have s := abs_le.1 h
  obtain ⟨_, r, b⟩ := largest
  refine (FP.ofRat_val ?_).1
  rw [abs_lt]
  have u := rn_mono (f := b32) (a := x.val + y.val) (b := 340282346638528859811704183484516925440 + 1)
    (by linarith)
  have d := rn_mono (f := b32) (a := -(340282346638528859811704183484516925440 + 1)) (b := x.val + y.val)
    (by linarith)
  rw [rn_neg] at d
  rw [r] at u d
  constructor <;> linarith

theorem add_small' {x y : F32} (hx : x.fin = true) (hy : y.fin = true) (h : |x.val| ≤ 1) :
    (FP.add x y).fin = true := by
  rw [FP.add_fin hx hy]
  have := add_small hy hx h
  rw [FP.add_fin hy hx, add_comm] at this
  revert this
  unfold FP.ofRat
  repeat' split
  all_goals intro h; first | rfl | cases h

theorem sub_small {x y : F32} (hx : x.fin = true) (hy : y.fin = true) (h : |y.val| ≤ 1) :
    (FP.sub x y).fin = true :=
  add_small hx (FP.neg_fin hy).1 (by rw [(FP.neg_fin hy).2, abs_neg]; exact h)

theorem small_sub {x y : F32} (hx : x.fin = true) (hy : y.fin = true) (h : |x.val| ≤ 1) :
    (FP.sub x y).fin = true := add_small' hx (FP.neg_fin hy).1 h

section
variable [Libm b32]

theorem clamp_number {x : F32} (h : x ≠ .nan) :
    (clamp01 x).fin = true ∧ 0 ≤ (clamp01 x).val ∧ (clamp01 x).val ≤ 1 := by
  rw [clamp01_eq_spec]; exact (C23_range x).2 h

theorem new_unit {r g b a : F32} (hr : r ≠ .nan) (hg : g ≠ .nan) (hb : b ≠ .nan) (ha : a ≠ .nan) :
    UnitCol (Rgb.new_with_alpha r g b a) :=
  ⟨clamp_number hr, clamp_number hg, clamp_number hb, clamp_number ha⟩

theorem channels_unit {c : Col F32} (hc : UnitCol c) {f : F32 → F32}
    (hf : ∀ v : F32, v.fin = true ∧ 0 ≤ v.val ∧ v.val ≤ 1 → f v ≠ .nan) : UnitCol (Rgb.map_channels c f) :=
  ⟨clamp_number (hf _ hc.c0), clamp_number (hf _ hc.c1), clamp_number (hf _ hc.c2), hc.alpha⟩

theorem UnitCol.inRange {c : Col F32} (h : UnitCol c) : PixelInRange c :=
  ⟨⟨(upto_iff _).2 (.inr h.c0), (upto_iff _).2 (.inr h.c1), (upto_iff _).2 (.inr h.c2)⟩,
    (upto_iff _).2 (.inr h.alpha)⟩

/-- A value in range that is a number. -/
theorem unit_of {x : F32} (h : InRange x) (hn : x ≠ .nan) : x.fin = true ∧ 0 ≤ x.val ∧ x.val ≤ 1 := by
  rcases (upto_iff x).1 h with e | e
  · exact absurd e hn
  · exact e

end

end D10
