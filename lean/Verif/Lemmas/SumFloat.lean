import Verif.Lemmas.Near
import Verif.Lemmas.Gaussian
import Mathlib.Algebra.BigOperators.Ring.Finset
import Mathlib.Algebra.Order.BigOperators.Group.Finset
import Mathlib.Algebra.BigOperators.Intervals
import Mathlib.Algebra.BigOperators.Field
import Mathlib.Algebra.Order.Ring.Pow

/-! # Sums, quotients and weights in binary32 -/

namespace D10
open Spec

/-! ## Relative rounding errors -/

/-- Rounding error relative to the size of the number, plus half the least number. -/
theorem rn_rel_tiny (q : ℚ) : |rn b32 q - q| ≤ |q| / 16777216 + pow2 (-150) := by
  have hs : pow2 (-150) = pow2 (-149) / 2 := by norm_num [pow2_eq]
  by_cases hq : q = 0
  · rw [hq, rn_zero]; simpa using (pow2_pos (-150)).le
  refine le_trans (rn_err b32 q) ?_
  have hp := pow2_pos (-150)
  have ha := abs_nonneg q
  rcases le_total (ilog2 q - 23) (-149) with h | h
  · have : ulpExp b32 q = -149 := by
      unfold ulpExp; exact max_eq_right (by simpa using h)
    rw [this]
    linarith
  · have : ulpExp b32 q = ilog2 q - 23 := by
      unfold ulpExp; exact max_eq_left (by simpa using h)
    rw [this, pow2_sub]
    have h1 := (ilog2_spec hq).1
    have h2 : pow2 23 = 8388608 := by norm_num [pow2_eq]
    rw [h2]
    linarith

/-- Numbers at least `2^-126` in size have a relative error only. -/
theorem rn_rel_normal {q : ℚ} (h : pow2 (-126) ≤ |q|) : |rn b32 q - q| ≤ |q| / 16777216 := by
  have hq : q ≠ 0 := by
    rintro rfl
    rw [abs_zero] at h
    exact absurd (pow2_pos (-126)) (not_lt.2 h)
  refine le_trans (rn_err b32 q) ?_
  have hl := le_ilog2 hq h
  have : ulpExp b32 q = ilog2 q - 23 := by
    unfold ulpExp; exact max_eq_left (by simp; omega)
  rw [this, pow2_sub]
  have h1 := (ilog2_spec hq).1
  have h2 : pow2 23 = 8388608 := by norm_num [pow2_eq]
  rw [h2]
  linarith

/-- Representable numbers are multiples of the least one. -/
theorem rep_multiple149 {a : ℚ} (h : IsRep b32 a) : ∃ m : ℤ, a = m * pow2 (-149) := by
  obtain ⟨m, e, -, he, rfl⟩ := h
  have he' : (-149 : ℤ) ≤ e := he
  obtain ⟨k, hk⟩ := pow2_int (show 0 ≤ e - (-149) by omega)
  refine ⟨m * k, ?_⟩
  push_cast
  rw [mul_assoc, ← hk, ← pow2_add, Int.sub_add_cancel]

/-- A sum of two binary32 numbers has a relative error only. -/
theorem rn_add_rel {a b : ℚ} (ha : IsRep b32 a) (hb : IsRep b32 b) :
    |rn b32 (a + b) - (a + b)| ≤ |a + b| / 16777216 := by
  by_cases hq : a + b = 0
  · rw [hq, rn_zero]; simp
  rcases le_total (ilog2 (a + b) - 23) (-149) with h | h
  · have hu : ulpExp b32 (a + b) = -149 := by
      unfold ulpExp; exact max_eq_right (by simpa using h)
    obtain ⟨m, hm⟩ := rep_multiple149 ha
    obtain ⟨n, hn⟩ := rep_multiple149 hb
    have : rn b32 (a + b) = a + b := by
      apply rn_of_mul (m := m + n)
      rw [hu]; push_cast; rw [add_mul, ← hm, ← hn]
    rw [this, sub_self, abs_zero]
    positivity
  · refine le_trans (rn_err b32 _) ?_
    have : ulpExp b32 (a + b) = ilog2 (a + b) - 23 := by
      unfold ulpExp; exact max_eq_left (by simpa using h)
    rw [this, pow2_sub]
    have h1 := (ilog2_spec hq).1
    have h2 : pow2 23 = 8388608 := by norm_num [pow2_eq]
    rw [h2]
    linarith

variable [Libm b32]

/-! ## Adding up a list -/

/-- Adding up numbers one after the other: absolute error. -/
theorem fold_near {ι : Type} (m : ℕ) (hm : m + 1 ≤ 100) (f : ι → F32) (q B : ι → ℝ) (e : ℝ) :
    ∀ (l : List ι) (a : F32) (qa ea Ba : ℝ), NearF a qa ea Ba →
      (∀ i ∈ l, NearF (f i) (q i) e (B i)) → 0 ≤ e →
      Ba + (l.map B).sum ≤ 2 ^ m →
      ea + l.length * (e + 2 ^ (m + 1) / 33554432) ≤ 2 ^ m →
      NearF ((l.map f).foldl (· +. ·) a) (qa + (l.map q).sum)
        (ea + l.length * (e + 2 ^ (m + 1) / 33554432)) (Ba + (l.map B).sum) := by
  intro l
  induction l with
  | nil => intro a qa ea Ba ha _ _ _ _; simpa using ha
  | cons i l ih =>
    intro a qa ea Ba ha hl he hB hE
    have hi := hl i (by simp)
    have h0 : (0 : ℝ) ≤ e + 2 ^ (m + 1) / 33554432 := by positivity
    have hBl : 0 ≤ (l.map B).sum :=
      List.sum_nonneg fun x hx => by
        obtain ⟨j, hj, rfl⟩ := List.mem_map.1 hx
        exact (hl j (by simp [hj])).b_nonneg
    simp only [List.map_cons, List.sum_cons, List.length_cons, List.foldl_cons] at hB hE ⊢
    have hlen : (0 : ℝ) ≤ l.length * (e + 2 ^ (m + 1) / 33554432) := by positivity
    push_cast at hE ⊢
    have hp : (0 : ℝ) ≤ 2 ^ (m + 1) / 33554432 := by positivity
    have step := NearF.add (m + 1) hm ha hi (by
      rw [pow_succ]; nlinarith)
    have r := ih (a +. f i) (qa + q i) _ _ step (fun j hj => hl j (by simp [hj])) he
      (by linarith) (by linarith)
    exact (r.congr (by ring)).mono (le_of_eq (by ring)) (le_of_eq (by ring))

omit [Libm b32] in
theorem rows_sum (W H : Nat) (q : Nat → Nat → ℝ) :
    (rows W H q).sum = ∑ j ∈ Finset.range H, ∑ i ∈ Finset.range W, q i j := by
  induction H with
  | zero => simp [rows]
  | succ n ih =>
    rw [rows_succ, List.sum_append, ih, Finset.sum_range_succ]
    congr 1

omit [Libm b32] in
theorem mem_rows_flat {α : Type} {W H : Nat} {t : Nat → Nat → α} {x : α} (h : x ∈ rows W H t) :
    ∃ i j, i < W ∧ j < H ∧ x = t i j := by
  unfold rows at h
  simp only [List.mem_flatMap, List.mem_range, List.mem_map] at h
  obtain ⟨j, hj, i, hi, rfl⟩ := h
  exact ⟨i, j, hi, hj, rfl⟩

theorem zero_near : NearF (Scalar.lit 0 : F32) 0 0 0 := by
  have := NearF.lit_rep (B := 0) 0 FP.lit0 (by simp)
  simpa using this

/-- The table total of the specification: absolute error. -/
theorem total_near (m : ℕ) (hm : m + 1 ≤ 100) (W H : Nat) (t : Nat → Nat → F32)
    (q B : Nat → Nat → ℝ) (e : ℝ) (ht : ∀ i j, i < W → j < H → NearF (t i j) (q i j) e (B i j))
    (he : 0 ≤ e) (hB : ∑ j ∈ Finset.range H, ∑ i ∈ Finset.range W, B i j ≤ 2 ^ m)
    (hE : ((W * H : ℕ) : ℝ) * (e + 2 ^ (m + 1) / 33554432) ≤ 2 ^ m) :
    Close (total W H t) (∑ j ∈ Finset.range H, ∑ i ∈ Finset.range W, q i j)
      ((W * H : ℕ) * (e + 2 ^ (m + 1) / 33554432)) := by
  have key := fold_near m hm (fun p : Nat × Nat => t p.1 p.2) (fun p => q p.1 p.2)
    (fun p => B p.1 p.2) e (rows W H fun i j => (i, j)) (Scalar.lit 0) 0 0 0 zero_near
    (by
      intro p hp
      obtain ⟨i, j, hi, hj, rfl⟩ := mem_rows_flat hp
      exact ht i j hi hj) he
    (by rw [rows_map, rows_sum, zero_add]; exact hB)
    (by rw [rows_length, zero_add]; exact hE)
  rw [rows_map, rows_map, rows_map, rows_length, rows_sum, zero_add, zero_add, zero_add] at key
  exact key.close

/-! ## Adding up non-negative numbers: relative error -/

/-- Adding up non-negative numbers one after the other keeps a small relative error. -/
theorem fold_rel {ι : Type} (f : ι → F32) (M : ℚ) (hM : M ≤ pow2 127) :
    ∀ (l : List ι) (a : F32) (t : ℚ) (n : ℕ), a.fin = true → 0 ≤ t →
      t * (1 - 1 / 16777216) ^ n ≤ a.val → a.val ≤ t * (1 + 1 / 16777216) ^ n →
      (∀ i ∈ l, (f i).fin = true ∧ 0 ≤ (f i).val) →
      (t + (l.map fun i => (f i).val).sum) * (1 + 1 / 16777216) ^ (n + l.length) ≤ M →
      ((l.map f).foldl (· +. ·) a).fin = true ∧
      (t + (l.map fun i => (f i).val).sum) * (1 - 1 / 16777216) ^ (n + l.length) ≤
        ((l.map f).foldl (· +. ·) a).val ∧
      ((l.map f).foldl (· +. ·) a).val ≤
        (t + (l.map fun i => (f i).val).sum) * (1 + 1 / 16777216) ^ (n + l.length) := by
  intro l
  induction l with
  | nil =>
    intro a t n ha _ h1 h2 _ _
    simp only [List.map_nil, List.sum_nil, List.foldl_nil, List.length_nil, add_zero]
    exact ⟨ha, h1, h2⟩
  | cons i l ih =>
    intro a t n ha ht h1 h2 hl hS
    obtain ⟨fi, f0⟩ := hl i (by simp)
    have hls : 0 ≤ (l.map fun i => (f i).val).sum :=
      List.sum_nonneg fun x hx => by
        obtain ⟨j, hj, rfl⟩ := List.mem_map.1 hx
        exact (hl j (by simp [hj])).2
    simp only [List.map_cons, List.sum_cons, List.length_cons, List.foldl_cons] at hS ⊢
    have ea : n + (l.length + 1) = (n + 1) + l.length := by ring
    rw [ea] at hS ⊢
    have hup1 : (1 : ℚ) ≤ (1 + 1 / 16777216) ^ n := one_le_pow₀ (by norm_num)
    have hlo1 : ((1 : ℚ) - 1 / 16777216) ^ n ≤ 1 := pow_le_one₀ (by norm_num) (by norm_num)
    have hlo0 : (0 : ℚ) ≤ (1 - 1 / 16777216) ^ n := pow_nonneg (by norm_num) _
    have ha0 : 0 ≤ a.val := le_trans (mul_nonneg ht hlo0) h1
    have hsum0 : 0 ≤ a.val + (f i).val := add_nonneg ha0 f0
    have u1 : a.val + (f i).val ≤ (t + (f i).val) * (1 + 1 / 16777216) ^ n := by nlinarith
    have l1 : (t + (f i).val) * (1 - 1 / 16777216) ^ n ≤ a.val + (f i).val := by nlinarith
    have hr := rn_add_rel (FP.fin_rep ha).1 (FP.fin_rep fi).1
    rw [abs_of_nonneg hsum0, abs_le] at hr
    have u2 : rn b32 (a.val + (f i).val) ≤ (t + (f i).val) * (1 + 1 / 16777216) ^ (n + 1) := by
      rw [pow_succ, ← mul_assoc]; linarith
    have l2 : (t + (f i).val) * (1 - 1 / 16777216) ^ (n + 1) ≤ rn b32 (a.val + (f i).val) := by
      rw [pow_succ, ← mul_assoc]; linarith
    have hbig : (t + (f i).val) * (1 + 1 / 16777216) ^ (n + 1) ≤
        (t + ((f i).val + (l.map fun i => (f i).val).sum)) * (1 + 1 / 16777216) ^ (n + 1 + l.length) := by
      apply mul_le_mul (by linarith) _ (by positivity) (by linarith)
      exact pow_le_pow_right₀ (by norm_num) (by omega)
    have hfin : (a +. f i).fin = true ∧ (a +. f i).val = rn b32 (a.val + (f i).val) := by
      show (FP.add a (f i)).fin = true ∧ _
      have e : (a +. f i) = FP.add a (f i) := rfl
      rw [e, FP.add_fin ha fi]
      apply FP.ofRat_val
      rw [abs_of_nonneg (rn_nonneg hsum0)]
      calc _ ≤ M := by linarith
        _ ≤ pow2 127 := hM
        _ < _ := pow2_lt_iff.2 (by decide)
    have r := ih (a +. f i) (t + (f i).val) (n + 1) hfin.1 (by linarith)
      (by rw [hfin.2]; exact l2) (by rw [hfin.2]; exact u2) (fun j hj => hl j (by simp [hj]))
      (by rw [add_assoc]; exact hS)
    rw [add_assoc] at r
    exact r

omit [Libm b32] in
theorem rows_sum_rat (W H : Nat) (q : Nat → Nat → ℚ) :
    (rows W H q).sum = ∑ j ∈ Finset.range H, ∑ i ∈ Finset.range W, q i j := by
  induction H with
  | zero => simp [rows]
  | succ n ih =>
    rw [rows_succ, List.sum_append, ih, Finset.sum_range_succ]
    congr 1

/-- The table total of non-negative numbers: relative error. -/
theorem total_rel (W H : Nat) (t : Nat → Nat → F32)
    (ht : ∀ i j, i < W → j < H → (t i j).fin = true ∧ 0 ≤ (t i j).val)
    (hS : (∑ j ∈ Finset.range H, ∑ i ∈ Finset.range W, (t i j).val) * (1 + 1 / 16777216) ^ (W * H) ≤
      pow2 127) :
    (total W H t).fin = true ∧
    (∑ j ∈ Finset.range H, ∑ i ∈ Finset.range W, (t i j).val) * (1 - 1 / 16777216) ^ (W * H) ≤
      (total W H t).val ∧
    (total W H t).val ≤
      (∑ j ∈ Finset.range H, ∑ i ∈ Finset.range W, (t i j).val) * (1 + 1 / 16777216) ^ (W * H) := by
  have l0 : (Scalar.lit 0 : F32).fin = true ∧ (Scalar.lit 0 : F32).val = 0 := FP.lit0
  have key := fold_rel (fun p : Nat × Nat => t p.1 p.2) (pow2 127) le_rfl
    (rows W H fun i j => (i, j)) (Scalar.lit 0) 0 0 l0.1 le_rfl
    (by rw [l0.2]; simp) (by rw [l0.2]; simp)
    (by
      intro p hp
      obtain ⟨i, j, hi, hj, rfl⟩ := mem_rows_flat hp
      exact ht i j hi hj)
    (by rw [rows_map, rows_length, rows_sum_rat, zero_add, zero_add]; exact hS)
  rw [rows_map, rows_map, rows_length, rows_sum_rat, zero_add, zero_add] at key
  exact key

omit [Libm b32] in
theorem pow_up {n : ℕ} (hn : n ≤ 8388608) :
    (1 + 1 / 16777216 : ℝ) ^ n ≤ 1 + 2 * n / 16777216 := by
  induction n with
  | zero => simp
  | succ k ih =>
    have hk : (k : ℝ) ≤ 8388608 := by
      have : k ≤ 8388608 := by omega
      exact_mod_cast this
    have hk0 : (0 : ℝ) ≤ k := by positivity
    have := ih (by omega)
    rw [pow_succ]
    push_cast
    nlinarith

omit [Libm b32] in
theorem pow_down (n : ℕ) : 1 - (n : ℝ) / 16777216 ≤ (1 - 1 / 16777216 : ℝ) ^ n := by
  have := one_add_mul_le_pow (show (-2 : ℝ) ≤ -(1 / 16777216) by norm_num) n
  calc 1 - (n : ℝ) / 16777216 = 1 + n * -(1 / 16777216) := by ring
    _ ≤ _ := this
    _ = _ := by ring

/-- Dividing non-negative numbers by their computed total: how far the results are, all together,
from the exact shares. -/
theorem shares {N M : Nat} (v : Nat → Nat → F32) (S : F32) (T : ℝ)
    (hv : ∀ i j, i < N → j < M → (v i j).fin = true ∧ 0 ≤ (v i j).val)
    (hT : ∑ j ∈ Finset.range M, ∑ i ∈ Finset.range N, ((v i j).val : ℝ) = T) (hT0 : 0 < T)
    (hS : S.fin = true) {n : ℕ} (hn : n = N * M) (hn2 : n ≤ 4194304)
    (hS1 : T * (1 - 1 / 16777216) ^ n ≤ S.val) (hS2 : (S.val : ℝ) ≤ T * (1 + 1 / 16777216) ^ n) :
    (∀ i j, i < N → j < M → (v i j /. S).fin = true ∧ 0 ≤ (v i j /. S).val) ∧
    ∑ j ∈ Finset.range M, ∑ i ∈ Finset.range N, |((v i j /. S).val : ℝ) - (v i j).val / T| ≤
      3 * n / 16777216 := by
  have hnr : (n : ℝ) ≤ 4194304 := by exact_mod_cast hn2
  have hd := pow_down n
  have hu := pow_up (show n ≤ 8388608 by omega)
  have hlow : (3 / 4 : ℝ) ≤ (1 - 1 / 16777216) ^ n := by linarith
  have hSp : (0 : ℝ) < S.val := by nlinarith
  have hS0 : S.val ≠ 0 := by
    intro h; rw [h] at hSp; norm_num at hSp
  have hSq : (0 : ℚ) < S.val := by exact_mod_cast hSp
  -- how far the computed total is from the exact one
  have hTS : |T / S.val - 1| ≤ 2 * n / 16777216 := by
    rw [abs_le]
    constructor
    · rw [le_sub_iff_add_le, le_div_iff₀ hSp]
      have h2 : (S.val : ℝ) ≤ T * (1 + 2 * n / 16777216) := hS2.trans (by nlinarith)
      have hc : (0 : ℝ) ≤ n := by positivity
      have : (-(2 * (n : ℝ) / 16777216) + 1) * S.val ≤
          (-(2 * (n : ℝ) / 16777216) + 1) * (T * (1 + 2 * n / 16777216)) :=
        mul_le_mul_of_nonneg_left h2 (by linarith)
      nlinarith [mul_nonneg hT0.le (sq_nonneg (2 * (n : ℝ) / 16777216))]
    · rw [sub_le_iff_le_add, div_le_iff₀ hSp]
      have h2 : T * (1 - n / 16777216) ≤ S.val := le_trans (by nlinarith) hS1
      have hc : (0 : ℝ) ≤ n := by positivity
      have : (2 * (n : ℝ) / 16777216 + 1) * (T * (1 - n / 16777216)) ≤ (2 * (n : ℝ) / 16777216 + 1) * S.val :=
        mul_le_mul_of_nonneg_left h2 (by positivity)
      refine le_trans ?_ this
      have : (1 : ℝ) ≤ (2 * (n : ℝ) / 16777216 + 1) * (1 - n / 16777216) := by nlinarith
      nlinarith
  have hle : ∀ i j, i < N → j < M → ((v i j).val : ℝ) ≤ T := by
    intro i j hi hj
    rw [← hT]
    calc ((v i j).val : ℝ) ≤ ∑ i ∈ Finset.range N, ((v i j).val : ℝ) :=
          Finset.single_le_sum (f := fun i => ((v i j).val : ℝ))
            (fun k hk => by exact_mod_cast (hv k j (Finset.mem_range.1 hk) hj).2) (Finset.mem_range.2 hi)
      _ ≤ _ := Finset.single_le_sum (f := fun j => ∑ i ∈ Finset.range N, ((v i j).val : ℝ))
            (fun l hl => Finset.sum_nonneg fun k hk => by
              exact_mod_cast (hv k l (Finset.mem_range.1 hk) (Finset.mem_range.1 hl)).2)
            (Finset.mem_range.2 hj)
  have one : ∀ i j, i < N → j < M → ((v i j /. S).fin = true ∧ 0 ≤ (v i j /. S).val) ∧
      |((v i j /. S).val : ℝ) - (v i j).val / S.val| ≤ 1 / 16777216 := by
    intro i j hi hj
    obtain ⟨hf, h0⟩ := hv i j hi hj
    have hq0 : 0 ≤ (v i j).val / S.val := div_nonneg h0 hSq.le
    have hb : (((v i j).val / S.val : ℚ) : ℝ) ≤ 2 := by
      push_cast
      rw [div_le_iff₀ hSp]
      have := hle i j hi hj
      nlinarith
    have hb' : |(v i j).val / S.val| ≤ pow2 1 := by
      rw [abs_of_nonneg hq0]
      have : pow2 1 = 2 := rfl
      rw [this]
      exact_mod_cast hb
    have e : (v i j /. S) = FP.div (v i j) S := rfl
    rw [e, FP.div_fin hf hS hS0]
    obtain ⟨a1, a2⟩ := FP.ofRat_small (s := (v i j).isNeg ^^ S.isNeg) (k := 1) (by decide) (by decide) hb'
    refine ⟨⟨a1, by rw [a2]; exact rn_nonneg hq0⟩, ?_⟩
    rw [a2]
    have c := rn_err_le (f := b32) (q := (v i j).val / S.val) (k := 1) (by decide) hb'
    have hp : pow2 (1 - (b32.prec : ℤ)) / 2 = 1 / 16777216 := by norm_num [pow2_eq]
    rw [hp] at c
    have : ((|rn b32 ((v i j).val / S.val) - (v i j).val / S.val| : ℚ) : ℝ) ≤ ((1 / 16777216 : ℚ) : ℝ) := by
      exact_mod_cast c
    push_cast at this
    exact this
  refine ⟨fun i j hi hj => (one i j hi hj).1, ?_⟩
  have term : ∀ i j, i < N → j < M → |((v i j /. S).val : ℝ) - (v i j).val / T| ≤
      1 / 16777216 + ((v i j).val : ℝ) * (2 * n / 16777216 / T) := by
    intro i j hi hj
    have h0 : (0 : ℝ) ≤ (v i j).val := by exact_mod_cast (hv i j hi hj).2
    have e : ((v i j /. S).val : ℝ) - (v i j).val / T =
        (((v i j /. S).val : ℝ) - (v i j).val / S.val) + (v i j).val * ((T / S.val - 1) / T) := by
      field_simp; ring
    rw [e]
    refine (abs_add_le _ _).trans (add_le_add (one i j hi hj).2 ?_)
    rw [abs_mul, abs_of_nonneg h0, abs_div, abs_of_pos hT0]
    gcongr
  calc _ ≤ ∑ j ∈ Finset.range M, ∑ i ∈ Finset.range N,
        (1 / 16777216 + ((v i j).val : ℝ) * (2 * n / 16777216 / T)) :=
        Finset.sum_le_sum fun j hj => Finset.sum_le_sum fun i hi =>
          term i j (Finset.mem_range.1 hi) (Finset.mem_range.1 hj)
    _ = (N * M : ℝ) * (1 / 16777216) + T * (2 * n / 16777216 / T) := by
        simp only [Finset.sum_add_distrib, ← Finset.sum_mul, hT]
        simp
        ring
    _ = 3 * n / 16777216 := by
        rw [hn]; push_cast; field_simp; ring

/-- A weighted sum of channels: absolute error. -/
theorem weighted_near (m : ℕ) (hm : m + 1 ≤ 100) (W H : Nat) (wt c : Nat → Nat → F32)
    (hw : ∀ i j, i < W → j < H → (wt i j).fin = true)
    (hS : ∑ j ∈ Finset.range H, ∑ i ∈ Finset.range W, |((wt i j).val : ℝ)| ≤ 2 ^ m)
    (hc : ∀ i j, i < W → j < H → (c i j).fin = true ∧ 0 ≤ (c i j).val ∧ (c i j).val ≤ 1)
    (hn : W * H ≤ 8388608) :
    Close (total W H fun i j => wt i j *. c i j)
      (∑ j ∈ Finset.range H, ∑ i ∈ Finset.range W, ((wt i j).val : ℝ) * (c i j).val)
      (3 * (W * H : ℕ) * 2 ^ m / 33554432) := by
  have hle : ∀ i j, i < W → j < H → |((wt i j).val : ℝ)| ≤ 2 ^ m := by
    intro i j hi hj
    refine le_trans ?_ hS
    calc |((wt i j).val : ℝ)| ≤ ∑ i ∈ Finset.range W, |((wt i j).val : ℝ)| :=
          Finset.single_le_sum (f := fun i => |((wt i j).val : ℝ)|)
            (fun k hk => abs_nonneg _) (Finset.mem_range.2 hi)
      _ ≤ _ := Finset.single_le_sum (f := fun j => ∑ i ∈ Finset.range W, |((wt i j).val : ℝ)|)
            (fun l hl => Finset.sum_nonneg fun k hk => abs_nonneg _)
            (Finset.mem_range.2 hj)
  have hnr : ((W * H : ℕ) : ℝ) ≤ 8388608 := by exact_mod_cast hn
  have hp : (0 : ℝ) < 2 ^ m := by positivity
  have key := total_near m hm W H (fun i j => wt i j *. c i j)
    (fun i j => ((wt i j).val : ℝ) * (c i j).val) (fun i j => |((wt i j).val : ℝ)|) (2 ^ m / 33554432)
    (by
      intro i j hi hj
      have a := NearF.mul m (by omega) (NearF.of_fin (hw i j hi hj) le_rfl) (NearF.unit (hc i j hi hj))
        (by simpa using hle i j hi hj)
      exact a.mono (le_of_eq (by ring)) (le_of_eq (by ring)))
    (by positivity) hS
    (by rw [pow_succ]; nlinarith)
  refine key.mono (le_of_eq ?_)
  rw [pow_succ]; ring

end D10
