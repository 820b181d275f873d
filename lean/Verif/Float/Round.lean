import Mathlib.Data.Rat.Floor
import Mathlib.Algebra.Order.Field.Power
import Mathlib.Algebra.Order.Round
import Mathlib.Tactic.Linarith
import Mathlib.Tactic.Ring
import Mathlib.Tactic.FieldSimp
import Mathlib.Tactic.Positivity
import Mathlib.Tactic.NormNum

/-!
# Rounding to a binary floating point format (IEEE 754, round to nearest, ties to even)

Rust's `f32` and `f64` are the IEEE 754 formats binary32 and binary64; their `+ - * /` and
conversions are the exact result rounded to nearest, ties to even. This file defines that rounding
on rational numbers and proves what is needed about it.
-/

namespace D10

/-- A binary floating point format: number of significand bits, exponent of the least subnormal,
exponent bound (finite values are below `2^emax`). -/
structure Fmt where
  prec : Nat
  emin : Int
  emax : Int
  pos : 0 < prec
  hmin : emin ≤ 0
  hmax : (prec : Int) < emax

/-- binary32 -/
abbrev b32 : Fmt := ⟨24, -149, 128, by decide, by decide, by decide⟩
/-- binary64 -/
abbrev b64 : Fmt := ⟨53, -1074, 1024, by decide, by decide, by decide⟩

/-- `2^e` for an integer `e`. -/
def pow2 : Int → ℚ
  | .ofNat n => ((2 ^ n : Nat) : ℚ)
  | .negSucc n => mkRat 1 (2 ^ (n + 1))

theorem pow2_eq (e : Int) : pow2 e = (2 : ℚ) ^ e := by
  cases e with
  | ofNat n => simp [pow2]
  | negSucc n => simp [pow2, Rat.mkRat_eq_div, zpow_negSucc]

theorem pow2_pos (e : Int) : 0 < pow2 e := by rw [pow2_eq]; positivity

theorem pow2_add (a b : Int) : pow2 (a + b) = pow2 a * pow2 b := by
  rw [pow2_eq, pow2_eq, pow2_eq, zpow_add₀ (by norm_num)]

theorem pow2_sub (a b : Int) : pow2 (a - b) = pow2 a / pow2 b := by
  rw [pow2_eq, pow2_eq, pow2_eq, zpow_sub₀ (by norm_num)]

theorem pow2_succ (a : Int) : pow2 (a + 1) = 2 * pow2 a := by
  rw [pow2_add, mul_comm]; rfl

theorem pow2_le {a b : Int} (h : a ≤ b) : pow2 a ≤ pow2 b := by
  rw [pow2_eq, pow2_eq]; exact zpow_le_zpow_right₀ (by norm_num) h

theorem pow2_lt_iff {a b : Int} : pow2 a < pow2 b ↔ a < b := by
  rw [pow2_eq, pow2_eq]; exact zpow_lt_zpow_iff_right₀ (by norm_num)

theorem pow2_nat (n : Nat) : pow2 (n : Int) = 2 ^ n := by
  rw [pow2_eq]; simp

/-- `pow2` of a non-negative exponent is an integer. -/
theorem pow2_int {a : Int} (h : 0 ≤ a) : ∃ k : Int, pow2 a = k := by
  obtain ⟨n, rfl⟩ := Int.eq_ofNat_of_zero_le h
  exact ⟨2 ^ n, by rw [pow2_nat]; push_cast; ring⟩

/-- Binary exponent of a non-zero rational: `2^k ≤ |q| < 2^(k+1)`. -/
def ilog2 (q : ℚ) : Int :=
  let k : Int := (Nat.log2 q.num.natAbs : Int) - (Nat.log2 q.den : Int)
  if |q| < pow2 k then k - 1 else k

theorem ilog2_spec {q : ℚ} (hq : q ≠ 0) : pow2 (ilog2 q) ≤ |q| ∧ |q| < pow2 (ilog2 q + 1) := by
  have hn : q.num.natAbs ≠ 0 := by simpa using hq
  have hd : q.den ≠ 0 := q.den_nz
  have habs : |q| = (q.num.natAbs : ℚ) / (q.den : ℚ) := by
    conv_lhs => rw [← Rat.num_div_den q]
    rw [abs_div, Nat.abs_cast]
    congr 1
    rw [Nat.cast_natAbs]; push_cast; rfl
  have n1 : (2 ^ Nat.log2 q.num.natAbs : ℚ) ≤ q.num.natAbs := by exact_mod_cast Nat.log2_self_le hn
  have n2 : (q.num.natAbs : ℚ) < 2 ^ (Nat.log2 q.num.natAbs + 1) := by
    exact_mod_cast Nat.lt_log2_self
  have d1 : (2 ^ Nat.log2 q.den : ℚ) ≤ q.den := by exact_mod_cast Nat.log2_self_le hd
  have d2 : (q.den : ℚ) < 2 ^ (Nat.log2 q.den + 1) := by exact_mod_cast Nat.lt_log2_self
  have hdp : (0 : ℚ) < q.den := by exact_mod_cast q.den_pos
  have up : |q| < pow2 ((Nat.log2 q.num.natAbs : Int) - (Nat.log2 q.den : Int) + 1) := by
    rw [show (Nat.log2 q.num.natAbs : Int) - (Nat.log2 q.den : Int) + 1 =
      ((Nat.log2 q.num.natAbs + 1 : Nat) : Int) - (Nat.log2 q.den : Int) by push_cast; ring,
      pow2_sub, pow2_nat, pow2_nat, habs, div_lt_div_iff₀ hdp (by positivity)]
    nlinarith [pow_pos (show (0:ℚ) < 2 by norm_num) (Nat.log2 q.den),
      pow_pos (show (0:ℚ) < 2 by norm_num) (Nat.log2 q.num.natAbs)]
  have lo : pow2 ((Nat.log2 q.num.natAbs : Int) - (Nat.log2 q.den : Int) - 1) ≤ |q| := by
    rw [show (Nat.log2 q.num.natAbs : Int) - (Nat.log2 q.den : Int) - 1 =
      (Nat.log2 q.num.natAbs : Int) - ((Nat.log2 q.den + 1 : Nat) : Int) by push_cast; ring,
      pow2_sub, pow2_nat, pow2_nat, habs, div_le_div_iff₀ (by positivity) hdp]
    nlinarith [pow_pos (show (0:ℚ) < 2 by norm_num) (Nat.log2 q.den),
      pow_pos (show (0:ℚ) < 2 by norm_num) (Nat.log2 q.num.natAbs)]
  unfold ilog2
  simp only
  split
  · rename_i h
    exact ⟨lo, by rw [Int.sub_add_cancel]; exact h⟩
  · rename_i h
    exact ⟨not_lt.1 h, up⟩

theorem ilog2_lt {q : ℚ} (hq : q ≠ 0) {k : Int} (h : |q| < pow2 k) : ilog2 q < k :=
  pow2_lt_iff.1 (lt_of_le_of_lt (ilog2_spec hq).1 h)

theorem le_ilog2 {q : ℚ} (hq : q ≠ 0) {k : Int} (h : pow2 k ≤ |q|) : k ≤ ilog2 q :=
  Int.lt_add_one_iff.1 (pow2_lt_iff.1 (lt_of_le_of_lt h (ilog2_spec hq).2))

/-- Nearest integer, ties to even. -/
def roundEven (r : ℚ) : Int :=
  let f := ⌊r⌋
  let d := r - f
  if d < 1 / 2 then f else if 1 / 2 < d then f + 1 else if f % 2 = 0 then f else f + 1

theorem roundEven_err (r : ℚ) : |(roundEven r : ℚ) - r| ≤ 1 / 2 := by
  have h1 := Int.floor_le r
  have h2 := Int.lt_floor_add_one r
  unfold roundEven
  simp only
  split
  · rw [abs_le]; constructor <;> linarith
  · split
    · push_cast; rw [abs_le]; constructor <;> linarith
    · split
      · rw [abs_le]; constructor <;> linarith
      · push_cast; rw [abs_le]; constructor <;> linarith

theorem roundEven_int (z : Int) : roundEven (z : ℚ) = z := by
  simp [roundEven]

/-- Nearest, in the strict case. -/
theorem roundEven_eq {r : ℚ} {z : Int} (h : |r - z| < 1 / 2) : roundEven r = z := by
  have h1 := roundEven_err r
  rw [abs_le] at h1
  rw [abs_lt] at h
  have a : ((roundEven r : ℚ)) < z + 1 := by linarith
  have b : (z : ℚ) - 1 < roundEven r := by linarith
  have a' : roundEven r < z + 1 := by exact_mod_cast a
  have b' : z - 1 < roundEven r := by exact_mod_cast b
  omega

theorem roundEven_mono {r s : ℚ} (h : r ≤ s) : roundEven r ≤ roundEven s := by
  have e1 := roundEven_err r
  have e2 := roundEven_err s
  rw [abs_le] at e1 e2
  by_contra hc
  have hc : roundEven s + 1 ≤ roundEven r := by omega
  have hcq : (roundEven s : ℚ) + 1 ≤ roundEven r := by exact_mod_cast hc
  -- then r and s are both the same half way point
  have hr : r = roundEven s + 1 / 2 := by linarith
  have hs : s = r := by linarith
  rw [hs] at hcq
  linarith

theorem roundEven_neg (r : ℚ) : roundEven (-r) = - roundEven r := by
  have h1 := Int.floor_le r
  have h2 := Int.lt_floor_add_one r
  by_cases hint : r = ⌊r⌋
  · rw [hint, ← Int.cast_neg, roundEven_int, roundEven_int]
  · have hlt : (⌊r⌋ : ℚ) < r := lt_of_le_of_ne h1 (Ne.symm hint)
    have hf : ⌊-r⌋ = -⌊r⌋ - 1 := by
      rw [Int.floor_eq_iff]; push_cast; constructor <;> linarith
    unfold roundEven
    simp only [hf]
    push_cast
    by_cases c1 : r - ⌊r⌋ < 1 / 2
    · rw [if_neg (by linarith), if_pos (by linarith), if_pos c1]; ring
    · by_cases c2 : 1 / 2 < r - ⌊r⌋
      · rw [if_pos (by linarith), if_neg c1, if_pos c2]; ring
      · rw [if_neg (by linarith), if_neg (by linarith), if_neg c1, if_neg c2]
        split <;> split <;> omega

/-- Exponent of the unit in the last place used when rounding `q`. -/
def ulpExp (f : Fmt) (q : ℚ) : Int := max (ilog2 q - (f.prec - 1 : Nat)) f.emin

/-- Round to nearest, ties to even, ignoring overflow. -/
def rn (f : Fmt) (q : ℚ) : ℚ := roundEven (q / pow2 (ulpExp f q)) * pow2 (ulpExp f q)

/-- The finite values of a format: `m * 2^e` with a significand of at most `prec` bits. -/
def IsRep (f : Fmt) (q : ℚ) : Prop :=
  ∃ m e : Int, |m| < 2 ^ f.prec ∧ f.emin ≤ e ∧ q = m * pow2 e

theorem rn_zero (f : Fmt) : rn f 0 = 0 := by
  unfold rn; rw [zero_div]; have := roundEven_int 0; push_cast at this; rw [this]; simp

theorem rn_err (f : Fmt) (q : ℚ) : |rn f q - q| ≤ pow2 (ulpExp f q) / 2 := by
  have hp := pow2_pos (ulpExp f q)
  have h := roundEven_err (q / pow2 (ulpExp f q))
  have : rn f q - q = ((roundEven (q / pow2 (ulpExp f q)) : ℚ) - q / pow2 (ulpExp f q)) *
      pow2 (ulpExp f q) := by unfold rn; field_simp
  rw [this, abs_mul, abs_of_pos hp]
  nlinarith

theorem ilog2_neg (q : ℚ) : ilog2 (-q) = ilog2 q := by simp [ilog2]

theorem ulpExp_neg (f : Fmt) (q : ℚ) : ulpExp f (-q) = ulpExp f q := by
  unfold ulpExp; rw [ilog2_neg]

theorem rn_neg (f : Fmt) (q : ℚ) : rn f (-q) = - rn f q := by
  unfold rn; rw [ulpExp_neg, neg_div, roundEven_neg]; push_cast; ring

theorem IsRep.neg {f : Fmt} {q : ℚ} (h : IsRep f q) : IsRep f (-q) := by
  obtain ⟨m, e, h1, h2, h3⟩ := h
  exact ⟨-m, e, by rwa [abs_neg], h2, by rw [h3]; push_cast; ring⟩

theorem IsRep.zero (f : Fmt) : IsRep f 0 :=
  ⟨0, f.emin, by simp, le_refl _, by simp⟩

/-- A multiple of the unit in the last place of `q` is kept by rounding. -/
theorem rn_of_mul {f : Fmt} {q : ℚ} {m : Int} (h : q = m * pow2 (ulpExp f q)) : rn f q = q := by
  have hp := pow2_pos (ulpExp f q)
  have : q / pow2 (ulpExp f q) = m := by rw [div_eq_iff hp.ne']; exact h
  unfold rn
  rw [this, roundEven_int, ← h]

/-- Representable values are not changed. -/
theorem rn_rep {f : Fmt} {q : ℚ} (h : IsRep f q) : rn f q = q := by
  by_cases hq : q = 0
  · rw [hq, rn_zero]
  obtain ⟨m, e, h1, h2, h3⟩ := h
  have hlog : ilog2 q < f.prec + e := by
    apply ilog2_lt hq
    rw [h3, abs_mul, abs_of_pos (pow2_pos e), pow2_add, pow2_nat]
    have : (|m| : ℚ) < 2 ^ f.prec := by exact_mod_cast h1
    have := pow2_pos e
    nlinarith
  have hpos := f.pos
  have hle : ulpExp f q ≤ e := by unfold ulpExp; omega
  obtain ⟨k, hk⟩ := pow2_int (show 0 ≤ e - ulpExp f q by omega)
  apply rn_of_mul (m := m * k)
  push_cast
  rw [mul_assoc, ← hk, ← pow2_add, Int.sub_add_cancel]
  exact h3

theorem roundEven_abs_le {r : ℚ} {n : Int} (h : |r| ≤ n) : |roundEven r| ≤ n := by
  rw [abs_le] at h ⊢
  constructor
  · have := roundEven_mono h.1
    rw [← Int.cast_neg, roundEven_int] at this; exact this
  · have := roundEven_mono h.2
    rw [roundEven_int] at this; exact this

theorem scaled_lt {f : Fmt} {q : ℚ} (hq : q ≠ 0) :
    |q / pow2 (ulpExp f q)| ≤ (2 : ℚ) ^ f.prec := by
  have hp := pow2_pos (ulpExp f q)
  rw [abs_div, abs_of_pos hp, div_le_iff₀ hp, ← pow2_nat, ← pow2_add]
  refine le_trans (ilog2_spec hq).2.le (pow2_le ?_)
  have := f.pos
  unfold ulpExp; omega

/-- The result of rounding is representable (if it does not overflow it is a finite value). -/
theorem rn_isRep (f : Fmt) (q : ℚ) : IsRep f (rn f q) := by
  by_cases hq : q = 0
  · rw [hq, rn_zero]; exact IsRep.zero f
  have h1 : |roundEven (q / pow2 (ulpExp f q))| ≤ 2 ^ f.prec := by
    apply roundEven_abs_le
    have := scaled_lt (f := f) hq
    push_cast
    exact this
  have hmin : f.emin ≤ ulpExp f q := by unfold ulpExp; omega
  rcases lt_or_eq_of_le h1 with h | h
  · exact ⟨_, _, h, hmin, rfl⟩
  · -- carry: the significand became 2^prec
    have hpos := f.pos
    have hpr : (2 : Int) ^ f.prec = 2 * 2 ^ (f.prec - 1) := by
      rw [← pow_succ']; congr 1; omega
    have hlt : (2 : Int) ^ (f.prec - 1) < 2 ^ f.prec := by
      have : (0 : Int) < 2 ^ (f.prec - 1) := by positivity
      omega
    rcases abs_eq (show (0 : Int) ≤ 2 ^ f.prec by positivity) |>.1 h with h' | h'
    · refine ⟨2 ^ (f.prec - 1), ulpExp f q + 1, ?_, by omega, ?_⟩
      · rw [abs_of_pos (by positivity)]; exact hlt
      · unfold rn; rw [h', hpr, pow2_succ]; push_cast; ring
    · refine ⟨-2 ^ (f.prec - 1), ulpExp f q + 1, ?_, by omega, ?_⟩
      · rw [abs_neg, abs_of_pos (by positivity)]; exact hlt
      · unfold rn; rw [h', hpr, pow2_succ]; push_cast; ring

theorem rn_nonneg {f : Fmt} {q : ℚ} (h : 0 ≤ q) : 0 ≤ rn f q := by
  have hp := pow2_pos (ulpExp f q)
  have h1 : (0 : ℚ) ≤ q / pow2 (ulpExp f q) := by positivity
  have h2 := roundEven_mono h1
  have h0 := roundEven_int 0
  push_cast at h0
  rw [h0] at h2
  have : (0 : ℚ) ≤ (roundEven (q / pow2 (ulpExp f q)) : ℚ) := by exact_mod_cast h2
  unfold rn; positivity

/-- Rounding does not pass a power of two from below ... -/
theorem rn_le_pow2 {f : Fmt} {q : ℚ} {k : Int} (hk : f.emin ≤ k)
    (h : |q| ≤ pow2 k) : |rn f q| ≤ pow2 k := by
  by_cases hq : q = 0
  · rw [hq, rn_zero, abs_zero]; exact (pow2_pos k).le
  have hp := pow2_pos (ulpExp f q)
  by_cases hku : ulpExp f q ≤ k
  · obtain ⟨z, hz⟩ := pow2_int (show 0 ≤ k - ulpExp f q by omega)
    have h1 : |roundEven (q / pow2 (ulpExp f q))| ≤ z := by
      apply roundEven_abs_le
      rw [← hz, pow2_sub, abs_div, abs_of_pos hp]
      exact div_le_div_of_nonneg_right h hp.le
    have h1q : (|(roundEven (q / pow2 (ulpExp f q)) : ℚ)|) ≤ z := by exact_mod_cast h1
    unfold rn
    rw [abs_mul, abs_of_pos hp]
    calc _ ≤ (z : ℚ) * pow2 (ulpExp f q) := by nlinarith
      _ = pow2 k := by rw [← hz, ← pow2_add]; congr 1; omega
  · -- then the exponent of q is at least k + prec > k, impossible
    exfalso
    have : ilog2 q ≤ k := by
      have := lt_of_le_of_lt h (pow2_lt_iff.2 (show k < k + 1 by omega))
      have := ilog2_lt hq this
      omega
    unfold ulpExp at hku
    omega

/-- ... nor from above. -/
theorem pow2_le_rn {f : Fmt} {q : ℚ} {k : Int} (h : pow2 k ≤ q) (hkp : ulpExp f q ≤ k) : pow2 k ≤ rn f q := by
  have hp := pow2_pos (ulpExp f q)
  obtain ⟨z, hz⟩ := pow2_int (show 0 ≤ k - ulpExp f q by omega)
  have h1 : z ≤ roundEven (q / pow2 (ulpExp f q)) := by
    rw [← roundEven_int z]
    apply roundEven_mono
    rw [← hz, pow2_sub]
    exact div_le_div_of_nonneg_right h hp.le
  have h1q : (z : ℚ) ≤ (roundEven (q / pow2 (ulpExp f q)) : ℚ) := by exact_mod_cast h1
  unfold rn
  calc pow2 k = (z : ℚ) * pow2 (ulpExp f q) := by rw [← hz, ← pow2_add]; congr 1; omega
    _ ≤ _ := by nlinarith

theorem ulpExp_mono {f : Fmt} {a b : ℚ} (ha : a ≠ 0) (hb : b ≠ 0) (h : |a| ≤ |b|) :
    ulpExp f a ≤ ulpExp f b := by
  have : ilog2 a ≤ ilog2 b := by
    have := ilog2_lt ha (lt_of_le_of_lt h (ilog2_spec hb).2)
    omega
  unfold ulpExp; omega

theorem rn_mono_pos {f : Fmt} {a b : ℚ} (ha : 0 < a) (h : a ≤ b) :
    rn f a ≤ rn f b := by
  have hb : 0 < b := lt_of_lt_of_le ha h
  have hu := ulpExp_mono (f := f) ha.ne' hb.ne' (by rw [abs_of_pos ha, abs_of_pos hb]; exact h)
  rcases eq_or_lt_of_le hu with he | hlt
  · have hp := pow2_pos (ulpExp f b)
    unfold rn
    rw [he]
    have : roundEven (a / pow2 (ulpExp f b)) ≤ roundEven (b / pow2 (ulpExp f b)) :=
      roundEven_mono (div_le_div_of_nonneg_right h hp.le)
    have : (roundEven (a / pow2 (ulpExp f b)) : ℚ) ≤ roundEven (b / pow2 (ulpExp f b)) := by
      exact_mod_cast this
    nlinarith
  · -- different binades: a power of two lies between
    have hpos := f.pos
    have hbu : ulpExp f b = ilog2 b - (f.prec - 1 : Nat) := by
      unfold ulpExp at hlt ⊢; omega
    have hlb := (ilog2_spec hb.ne').1
    rw [abs_of_pos hb] at hlb
    have h1 : ilog2 a + 1 ≤ ilog2 b := by unfold ulpExp at hlt hbu; omega
    have hemin : f.emin ≤ ilog2 b := by unfold ulpExp at hbu; omega
    have h2 : |rn f a| ≤ pow2 (ilog2 b) := by
      apply rn_le_pow2 hemin
      exact le_trans (ilog2_spec ha.ne').2.le (pow2_le h1)
    have h3 : pow2 (ilog2 b) ≤ rn f b := by
      apply pow2_le_rn hlb
      omega
    exact le_trans (le_trans (le_abs_self _) h2) h3

theorem rn_mono {f : Fmt} {a b : ℚ} (h : a ≤ b) : rn f a ≤ rn f b := by
  rcases lt_trichotomy a 0 with ha | ha | ha
  · rcases lt_or_ge b 0 with hb | hb
    · have := rn_mono_pos (f := f) (show 0 < -b by linarith) (show -b ≤ -a by linarith)
      rw [rn_neg, rn_neg] at this; linarith
    · have h1 := rn_nonneg (f := f) hb
      have h2 := rn_nonneg (f := f) (show 0 ≤ -a by linarith)
      rw [rn_neg] at h2; linarith
  · rw [ha, rn_zero]; exact rn_nonneg (by linarith)
  · exact rn_mono_pos ha h

theorem rn_le_rep {f : Fmt} {q r : ℚ} (hr : IsRep f r) (h : q ≤ r) :
    rn f q ≤ r := by rw [← rn_rep hr]; exact rn_mono h

theorem rep_le_rn {f : Fmt} {q r : ℚ} (hr : IsRep f r) (h : r ≤ q) :
    r ≤ rn f q := by rw [← rn_rep hr]; exact rn_mono h

theorem rn_abs_le {f : Fmt} {q r : ℚ} (hr : IsRep f r) (h : |q| ≤ r) :
    |rn f q| ≤ r := by
  rw [abs_le] at h ⊢
  refine ⟨?_, rn_le_rep hr h.2⟩
  have := rep_le_rn hr.neg h.1
  exact this

/-- Small integers are representable. -/
theorem IsRep.int {f : Fmt} {z : Int} (hz : |z| ≤ 2 ^ f.prec) : IsRep f (z : ℚ) := by
  rcases lt_or_eq_of_le hz with h | h
  · exact ⟨z, 0, h, f.hmin, by simp [pow2]⟩
  · have hpos := f.pos
    have hmin := f.hmin
    have hpr : (2 : Int) ^ f.prec = 2 * 2 ^ (f.prec - 1) := by rw [← pow_succ']; congr 1; omega
    have hlt : (2 : Int) ^ (f.prec - 1) < 2 ^ f.prec := by
      have : (0 : Int) < 2 ^ (f.prec - 1) := by positivity
      omega
    have p1 : pow2 1 = 2 := rfl
    rcases abs_eq (show (0 : Int) ≤ 2 ^ f.prec by positivity) |>.1 h with h' | h'
    · refine ⟨2 ^ (f.prec - 1), 1, by rw [abs_of_pos (by positivity)]; exact hlt, by omega, ?_⟩
      rw [h', hpr, p1]; push_cast; ring
    · refine ⟨-2 ^ (f.prec - 1), 1, by rw [abs_neg, abs_of_pos (by positivity)]; exact hlt,
        by omega, ?_⟩
      rw [h', hpr, p1]; push_cast; ring

theorem IsRep.pow2 {f : Fmt} {k : Int} (hk : f.emin ≤ k) : IsRep f (pow2 k) := by
  refine ⟨1, k, ?_, hk, by simp⟩
  rw [abs_one]
  calc (1 : Int) < 2 ^ 1 := by norm_num
    _ ≤ 2 ^ f.prec := pow_le_pow_right₀ (by norm_num) f.pos

end D10
