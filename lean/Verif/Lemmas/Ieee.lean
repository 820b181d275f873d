import Verif.Lemmas.FP
import Verif.SpecIeee
import Mathlib.Algebra.Ring.Int.Parity
import Mathlib.Tactic.GCongr

/-! # Rounding to the nearest representable number -/

namespace D10
open Spec
variable {f : Fmt}

theorem rep_iff {q : ℚ} : Representable f q ↔ IsRep f q := by
  unfold Representable IsRep
  simp only [pow2_eq]

/-- `roundEven` is the nearest integer. -/
theorem roundEven_near (r : ℚ) (m : ℤ) : |(roundEven r : ℚ) - r| ≤ |(m : ℚ) - r| := by
  by_cases h : |r - m| < 1 / 2
  · rw [roundEven_eq h]
  · rw [abs_sub_comm] at h; exact le_trans (roundEven_err r) (not_lt.1 h)

theorem roundEven_tie {r : ℚ} {m : ℤ} (hne : m ≠ roundEven r)
    (h : |(m : ℚ) - r| = |(roundEven r : ℚ) - r|) : Even (roundEven r) := by
  have he := roundEven_err r
  have hm : |(m : ℚ) - r| ≤ 1 / 2 := h ▸ he
  have h1 := Int.floor_le r
  have h2 := Int.lt_floor_add_one r
  have hd : r - ⌊r⌋ = 1 / 2 := by
    by_contra hc
    have key : |r - m| = 1 / 2 := by
      by_contra hlt
      exact hne (roundEven_eq (lt_of_le_of_ne (by rw [abs_sub_comm]; exact hm) hlt)).symm
    rcases (abs_eq (by norm_num)).1 key with hk | hk
    · apply hc
      have : ⌊r⌋ = m := by rw [Int.floor_eq_iff]; constructor <;> linarith
      rw [this]; linarith
    · apply hc
      have : ⌊r⌋ = m - 1 := by rw [Int.floor_eq_iff]; push_cast; constructor <;> linarith
      rw [this]; push_cast; linarith
  unfold roundEven
  simp only [hd, lt_irrefl, if_false]
  split
  · rename_i hev; exact Int.even_iff.2 hev
  · rename_i hev
    have : ⌊r⌋ % 2 = 1 := by omega
    rw [Int.even_iff]; omega

/-- The representable numbers that are not smaller than the binade of `q` are multiples of the unit
in the last place of `q`. -/
theorem rep_multiple {q r : ℚ} (hr : IsRep f r)
    (h : pow2 (ilog2 q) ≤ |r| ∨ ulpExp f q = f.emin) : ∃ m : ℤ, r = m * pow2 (ulpExp f q) := by
  obtain ⟨m, e, hm, he, rfl⟩ := hr
  by_cases hle : ulpExp f q ≤ e
  · obtain ⟨z, hz⟩ := pow2_int (show 0 ≤ e - ulpExp f q by omega)
    refine ⟨m * z, ?_⟩
    push_cast
    rw [← hz, mul_assoc, ← pow2_add]; congr 2; omega
  · exfalso
    rcases h with h | h
    · have hu : ulpExp f q = ilog2 q - (f.prec - 1 : Nat) := by
        unfold ulpExp at hle ⊢; omega
      have hp := pow2_pos e
      rw [abs_mul, abs_of_pos hp] at h
      have hmq : (|(m : ℚ)|) < pow2 (f.prec : Int) := by rw [pow2_nat]; exact_mod_cast hm
      have : |(m : ℚ)| * pow2 e < pow2 (f.prec : Int) * pow2 e := by nlinarith
      rw [← pow2_add] at this
      have hpos := f.pos
      have := lt_of_le_of_lt h this
      rw [pow2_lt_iff] at this
      omega
    · omega

theorem rn_near {q r : ℚ} (hr : IsRep f r) : |rn f q - q| ≤ |r - q| := by
  by_cases hq : q = 0
  · subst hq; rw [rn_zero]; simp
  have hp := pow2_pos (ulpExp f q)
  have mult : ∀ m : ℤ, |rn f q - q| ≤ |m * pow2 (ulpExp f q) - q| := by
    intro m
    have e1 : rn f q - q = ((roundEven (q / pow2 (ulpExp f q)) : ℚ) - q / pow2 (ulpExp f q)) *
        pow2 (ulpExp f q) := by unfold rn; field_simp
    have e2 : (m : ℚ) * pow2 (ulpExp f q) - q = (m - q / pow2 (ulpExp f q)) * pow2 (ulpExp f q) := by
      field_simp
    rw [e1, e2, abs_mul, abs_mul, abs_of_pos hp]
    exact mul_le_mul_of_nonneg_right (roundEven_near _ m) hp.le
  by_cases h : pow2 (ilog2 q) ≤ |r| ∨ ulpExp f q = f.emin
  · obtain ⟨m, rfl⟩ := rep_multiple hr h
    exact mult m
  · rw [not_or] at h
    have hu : ulpExp f q = ilog2 q - (f.prec - 1 : Nat) := by unfold ulpExp at h ⊢; omega
    obtain ⟨z, hz⟩ := pow2_int (show 0 ≤ ilog2 q - ulpExp f q by omega)
    have hz' : (z : ℚ) * pow2 (ulpExp f q) = pow2 (ilog2 q) := by
      rw [← hz, ← pow2_add]; congr 1; omega
    have hl := (ilog2_spec hq).1
    have hr1 := not_le.1 h.1
    rw [abs_lt] at hr1
    rcases lt_or_gt_of_ne hq with hneg | hpos
    · rw [abs_of_neg hneg] at hl
      refine le_trans (mult (-z)) ?_
      push_cast
      rw [neg_mul, hz', abs_of_nonneg (by linarith), abs_of_nonneg (by linarith)]
      linarith
    · rw [abs_of_pos hpos] at hl
      refine le_trans (mult z) ?_
      rw [hz', abs_of_nonpos (by linarith), abs_of_nonpos (by linarith)]
      linarith

theorem rn_even (hp2 : 2 ≤ f.prec) {q r : ℚ} (hr : IsRep f r) (hne : r ≠ rn f q)
    (h : |r - q| = |rn f q - q|) : EvenSignificand f (rn f q) := by
  by_cases hq : q = 0
  · subst hq; rw [rn_zero] at h hne; simp at h; exact absurd h hne
  have hp := pow2_pos (ulpExp f q)
  have hmin : f.emin ≤ ulpExp f q := by unfold ulpExp; omega
  have hm : ∃ m : ℤ, r = m * pow2 (ulpExp f q) := by
    by_cases hc : pow2 (ilog2 q) ≤ |r| ∨ ulpExp f q = f.emin
    · exact rep_multiple hr hc
    · exfalso
      rw [not_or] at hc
      have hu : ulpExp f q = ilog2 q - (f.prec - 1 : Nat) := by unfold ulpExp at hc ⊢; omega
      have hl := (ilog2_spec hq).1
      have hr1 := not_le.1 hc.1
      rw [abs_lt] at hr1
      have hrep : IsRep f (pow2 (ilog2 q)) := IsRep.pow2 (by omega)
      rcases lt_or_gt_of_ne hq with hneg | hpos
      · rw [abs_of_neg hneg] at hl
        have := rn_near (q := q) hrep.neg
        rw [← h, abs_of_nonneg (by linarith), abs_of_nonneg (by linarith)] at this
        linarith
      · rw [abs_of_pos hpos] at hl
        have := rn_near (q := q) hrep
        rw [← h, abs_of_nonpos (by linarith), abs_of_nonpos (by linarith)] at this
        linarith
  obtain ⟨m, rfl⟩ := hm
  have e1 : rn f q - q = ((roundEven (q / pow2 (ulpExp f q)) : ℚ) - q / pow2 (ulpExp f q)) *
      pow2 (ulpExp f q) := by unfold rn; field_simp
  have e2 : (m : ℚ) * pow2 (ulpExp f q) - q = (m - q / pow2 (ulpExp f q)) * pow2 (ulpExp f q) := by
    field_simp
  rw [e1, e2, abs_mul, abs_mul, abs_of_pos hp] at h
  have hev := roundEven_tie (m := m) (fun hc => hne (by unfold rn; rw [hc]))
    (mul_right_cancel₀ hp.ne' h)
  have h1 : |roundEven (q / pow2 (ulpExp f q))| ≤ 2 ^ f.prec := by
    apply roundEven_abs_le
    have := scaled_lt (f := f) hq
    push_cast
    exact this
  have hlow : (2 : ℤ) ^ (f.prec - 1) ≤ |roundEven (q / pow2 (ulpExp f q))| ∨ ulpExp f q = f.emin := by
    by_cases hu : ulpExp f q = f.emin
    · exact Or.inr hu
    left
    have hu' : ulpExp f q = ilog2 q - (f.prec - 1 : Nat) := by unfold ulpExp at hu ⊢; omega
    have hl := (ilog2_spec hq).1
    have hge : (2 : ℚ) ^ (f.prec - 1) ≤ |q / pow2 (ulpExp f q)| := by
      rw [abs_div, abs_of_pos hp, le_div_iff₀ hp, ← pow2_nat, ← pow2_add]
      refine le_trans (le_of_eq ?_) hl
      congr 1; omega
    rcases le_total 0 (q / pow2 (ulpExp f q)) with h0 | h0
    · rw [abs_of_nonneg h0] at hge
      have := roundEven_mono (r := ((2 ^ (f.prec - 1) : ℤ) : ℚ)) (by push_cast; exact hge)
      rw [roundEven_int] at this
      exact le_trans this (le_abs_self _)
    · rw [abs_of_nonpos h0] at hge
      have := roundEven_mono (r := ((2 ^ (f.prec - 1) : ℤ) : ℚ)) (by push_cast; exact hge)
      rw [roundEven_int, roundEven_neg] at this
      exact le_trans this (neg_le_abs _)
  rcases lt_or_eq_of_le h1 with hlt | heq
  · exact ⟨_, _, hlt, hmin, hlow, by unfold rn; rw [pow2_eq], hev⟩
  · have hpr : (2 : ℤ) ^ f.prec = 2 * 2 ^ (f.prec - 1) := by
      rw [← pow_succ']; congr 1; omega
    have hpr2 : (2 : ℤ) ^ (f.prec - 1) = 2 * 2 ^ (f.prec - 2) := by
      rw [← pow_succ']; congr 1; omega
    have hpos : (0 : ℤ) < 2 ^ (f.prec - 1) := by positivity
    rcases abs_eq (show (0 : ℤ) ≤ 2 ^ f.prec by positivity) |>.1 heq with h' | h'
    · refine ⟨2 ^ (f.prec - 1), ulpExp f q + 1, ?_, by omega, Or.inl (le_abs_self _), ?_, ?_⟩
      · rw [abs_of_pos hpos]; omega
      · unfold rn; rw [h', hpr, ← pow2_eq, pow2_succ]; push_cast; ring
      · rw [hpr2]; exact even_two_mul _
    · refine ⟨-2 ^ (f.prec - 1), ulpExp f q + 1, ?_, by omega, Or.inl (by rw [abs_neg]; exact le_abs_self _), ?_, ?_⟩
      · rw [abs_neg, abs_of_pos hpos]; omega
      · unfold rn; rw [h', hpr, ← pow2_eq, pow2_succ]; push_cast; ring
      · rw [hpr2]; exact (even_two_mul _).neg

theorem rn_nearest (hp2 : 2 ≤ f.prec) (q : ℚ) : Nearest f q (rn f q) where
  representable := rep_iff.2 (rn_isRep f q)
  near _ hr := rn_near (rep_iff.1 hr)
  even _ hr hne h := rn_even hp2 (rep_iff.1 hr) hne h

/-- Two even numbers are not neighbours. -/
theorem between_even {v w : ℚ} (h0 : 0 ≤ v) (hlt : v < w) (hv : EvenSignificand f v)
    (hw : EvenSignificand f w) : ∃ r, Representable f r ∧ v < r ∧ r < w := by
  obtain ⟨m, e, hm, he, hmc, rfl, hme⟩ := hv
  obtain ⟨n, d, hn, hd, hnc, rfl, hne⟩ := hw
  have pe : (0 : ℚ) < 2 ^ e := by positivity
  have pd : (0 : ℚ) < 2 ^ d := by positivity
  have hm0 : 0 ≤ m := by
    have : (0 : ℚ) ≤ m := nonneg_of_mul_nonneg_left h0 pe
    exact_mod_cast this
  have hn0 : 0 < n := by
    have : (0 : ℚ) < n := pos_of_mul_pos_left (lt_of_le_of_lt h0 hlt) pd.le
    exact_mod_cast this
  rw [abs_of_nonneg hm0] at hm hmc
  rw [abs_of_pos hn0] at hn hnc
  have hpos := f.pos
  have hpr : (2 : ℤ) ^ f.prec = 2 * 2 ^ (f.prec - 1) := by rw [← pow_succ']; congr 1; omega
  have hP : (0 : ℤ) < 2 ^ (f.prec - 1) := by positivity
  have hmq : (m : ℚ) < 2 * 2 ^ (f.prec - 1) := by rw [hpr] at hm; exact_mod_cast hm
  have hnq : (n : ℚ) < 2 * 2 ^ (f.prec - 1) := by rw [hpr] at hn; exact_mod_cast hn
  have hPq : (0 : ℚ) < 2 ^ (f.prec - 1) := by positivity
  have hP1 : (1 : ℚ) ≤ 2 ^ (f.prec - 1) := one_le_pow₀ (by norm_num)
  -- a power of two is at least twice a smaller one
  have dbl : ∀ a b : ℤ, a < b → 2 * (2 : ℚ) ^ a ≤ 2 ^ b := by
    intro a b hab
    rw [show (2 : ℚ) * 2 ^ a = 2 ^ (a + 1) by rw [zpow_add₀ (by norm_num)]; ring]
    exact zpow_le_zpow_right₀ (by norm_num) hab
  rcases lt_trichotomy e d with hed | hed | hed
  · have hnc' : 2 ^ (f.prec - 1) ≤ n := by rcases hnc with h | h; exact h; omega
    have hv : (m : ℚ) * 2 ^ e < 2 ^ (f.prec - 1) * 2 ^ d := by
      have := dbl e d hed
      nlinarith
    rcases lt_or_eq_of_le hnc' with hlt' | heq
    · refine ⟨((n - 1 : ℤ) : ℚ) * 2 ^ d, ⟨n - 1, d, by rw [abs_of_nonneg (by omega)]; omega, hd, rfl⟩, ?_, ?_⟩
      · have h1 : (2 : ℤ) ^ (f.prec - 1) ≤ n - 1 := by omega
        have : ((2 ^ (f.prec - 1) : ℤ) : ℚ) ≤ ((n - 1 : ℤ) : ℚ) := Int.cast_le.2 h1
        push_cast at this ⊢
        nlinarith
      · push_cast; nlinarith
    · have hd1 : (2 : ℚ) ^ d = 2 * 2 ^ (d - 1) := by rw [zpow_sub₀ (by norm_num), zpow_one]; field_simp
      refine ⟨((2 ^ f.prec - 1 : ℤ) : ℚ) * 2 ^ (d - 1), ⟨2 ^ f.prec - 1, d - 1, by
        rw [abs_of_nonneg (by omega)]; omega, by omega, rfl⟩, ?_, ?_⟩
      · have pd1 : (0 : ℚ) < 2 ^ (d - 1) := by positivity
        rcases lt_or_eq_of_le (show e ≤ d - 1 by omega) with h1 | h1
        · have := dbl e (d - 1) h1
          rw [hpr]; push_cast
          nlinarith
        · rw [h1]
          have : m < 2 ^ f.prec - 1 := by
            obtain ⟨k, hk⟩ := hme; omega
          have : (m : ℚ) < ((2 ^ f.prec - 1 : ℤ) : ℚ) := by exact_mod_cast this
          nlinarith
      · have pd1 : (0 : ℚ) < 2 ^ (d - 1) := by positivity
        rw [← heq, hd1, hpr]; push_cast; nlinarith
  · subst hed
    have hmn : m < n := by
      have : (m : ℚ) < n := lt_of_mul_lt_mul_right hlt pe.le
      exact_mod_cast this
    have : m + 1 < n := by obtain ⟨k, hk⟩ := hme; obtain ⟨l, hl⟩ := hne; omega
    refine ⟨((m + 1 : ℤ) : ℚ) * 2 ^ e, ⟨m + 1, e, by rw [abs_of_nonneg (by omega)]; omega, he, rfl⟩, ?_, ?_⟩
    · push_cast; nlinarith
    · have : ((m + 1 : ℤ) : ℚ) < n := by exact_mod_cast this
      nlinarith
  · exfalso
    have hmc' : 2 ^ (f.prec - 1) ≤ m := by rcases hmc with h | h; exact h; omega
    have : (2 : ℚ) ^ (f.prec - 1) ≤ m := by exact_mod_cast hmc'
    have := dbl d e hed
    nlinarith

theorem Nearest.unique {q v w : ℚ} (hv : Nearest f q v) (hw : Nearest f q w) : v = w := by
  -- it is enough to exclude v < w
  have key : ∀ v w : ℚ, Nearest f q v → Nearest f q w → ¬ v < w := by
    intro v w hv hw hlt
    have e1 := le_antisymm (hv.near w hw.representable) (hw.near v hv.representable)
    have ev := hv.even w hw.representable hlt.ne' e1.symm
    have ew := hw.even v hv.representable hlt.ne e1
    have hq : v - q = -(w - q) := by
      rcases abs_eq_abs.1 e1 with h | h
      · linarith
      · exact h
    have gap : ∀ r, Representable f r → ¬ (v < r ∧ r < w) := by
      intro r hr ⟨h1, h2⟩
      have := hv.near r hr
      rw [abs_of_nonpos (by linarith)] at this
      rcases abs_le_abs (a := r - q) (b := q - v) (by linarith) (by linarith) |>.lt_or_eq with hc | hc
      · rw [abs_of_nonneg (show 0 ≤ q - v by linarith)] at hc; linarith
      · rw [abs_of_nonneg (show 0 ≤ q - v by linarith)] at hc
        rcases (abs_eq (by linarith)).1 hc with h | h <;> linarith
    have neg : ∀ x, EvenSignificand f x → EvenSignificand f (-x) := by
      rintro x ⟨m, e, h1, h2, h3, rfl, h5⟩
      exact ⟨-m, e, by rwa [abs_neg], h2, by rwa [abs_neg], by push_cast; ring, h5.neg⟩
    rcases le_or_gt 0 v with h0 | h0
    · obtain ⟨r, hr, h1, h2⟩ := between_even h0 hlt ev ew
      exact gap r hr ⟨h1, h2⟩
    · rcases le_or_gt w 0 with hw0 | hw0
      · obtain ⟨r, hr, h1, h2⟩ := between_even (v := -w) (w := -v) (by linarith) (by linarith) (neg _ ew) (neg _ ev)
        exact gap (-r) (rep_iff.2 (rep_iff.1 hr).neg) ⟨by linarith, by linarith⟩
      · exact gap 0 (rep_iff.2 (IsRep.zero f)) ⟨h0, hw0⟩
  exact le_antisymm (not_lt.1 (key w v hw hv)) (not_lt.1 (key v w hv hw))

/-- The overflow threshold. -/
theorem rn_overflow (q : ℚ) : |rn f q| < pow2 f.emax ↔ ¬ TooLarge f q := by
  wlog h0 : 0 ≤ q with H
  · have := H (f := f) (-q) (by linarith)
    rw [rn_neg, abs_neg] at this
    rw [this]; unfold TooLarge; rw [abs_neg]
  have hpos := f.pos
  have hmin := f.hmin
  have hmax := f.hmax
  rw [abs_of_nonneg (rn_nonneg h0)]
  unfold TooLarge largest
  rw [abs_of_nonneg h0, not_le, ← pow2_eq]
  have hu := pow2_pos (f.emax - f.prec)
  have hP : (2 : ℤ) ^ f.prec = 2 * 2 ^ (f.prec - 1) := by rw [← pow_succ']; congr 1; omega
  have hP0 : (0 : ℤ) < 2 ^ (f.prec - 1) := by positivity
  have hPq : (2 : ℚ) ^ f.prec = 2 * 2 ^ (f.prec - 1) := by rw [← pow_succ']; congr 1; omega
  have hPq1 : (1 : ℚ) ≤ 2 ^ (f.prec - 1) := one_le_pow₀ (by norm_num)
  have htop : pow2 f.emax = 2 ^ f.prec * pow2 (f.emax - f.prec) := by
    rw [← pow2_nat, ← pow2_add]; congr 1; omega
  have hrepL : IsRep f ((2 ^ f.prec - 1) * pow2 (f.emax - f.prec)) :=
    ⟨2 ^ f.prec - 1, f.emax - f.prec, by rw [abs_of_nonneg (by omega)]; omega, by omega, by push_cast; ring⟩
  constructor
  · intro hlt
    by_contra hc
    rw [not_lt] at hc
    set T := (2 ^ f.prec - 1) * pow2 (f.emax - f.prec) + pow2 (f.emax - f.prec) / 2 with hT
    have hT' : T = (2 ^ f.prec - 1 / 2) * pow2 (f.emax - f.prec) := by rw [hT]; ring
    have hT0 : 0 < T := by rw [hT']; apply mul_pos _ hu; rw [hPq]; linarith
    have hlog : ilog2 T = f.emax - 1 := by
      have a : ilog2 T < f.emax := ilog2_lt hT0.ne' (by
        rw [abs_of_pos hT0, hT', htop]; nlinarith)
      have b : f.emax - 1 ≤ ilog2 T := le_ilog2 hT0.ne' (by
        rw [abs_of_pos hT0, hT', show f.emax - 1 = ((f.prec - 1 : Nat) : Int) + (f.emax - f.prec) by omega,
          pow2_add, pow2_nat, hPq]
        nlinarith)
      omega
    have hulp : ulpExp f T = f.emax - f.prec := by unfold ulpExp; rw [hlog]; omega
    have hrT : rn f T = pow2 f.emax := by
      unfold rn
      rw [hulp, htop]
      congr 1
      have : T / pow2 (f.emax - f.prec) = 2 ^ f.prec - 1 / 2 := by rw [hT']; field_simp
      rw [this]
      have hfl : ⌊(2 : ℚ) ^ f.prec - 1 / 2⌋ = 2 ^ f.prec - 1 := by
        rw [Int.floor_eq_iff]; push_cast; constructor <;> linarith
      unfold roundEven
      simp only [hfl]
      push_cast
      rw [if_neg (by linarith), if_neg (by linarith), if_neg (by omega)]
      ring
    have := rn_mono (f := f) hc
    rw [hrT] at this
    linarith
  · intro hlt
    by_contra hc
    rw [not_lt] at hc
    rcases le_or_gt q ((2 ^ f.prec - 1) * pow2 (f.emax - f.prec)) with h | h
    · have := rn_le_rep hrepL h
      rw [htop] at hc; nlinarith
    · have hn := rn_near (q := q) hrepL
      rw [htop] at hc
      have hq : q < 2 ^ f.prec * pow2 (f.emax - f.prec) := by nlinarith
      rw [abs_of_nonpos (a := _ - q) (show (2 ^ f.prec - 1) * pow2 (f.emax - f.prec) - q ≤ 0 by linarith),
        abs_of_nonneg (show 0 ≤ rn f q - q by linarith)] at hn
      nlinarith

/-- A non-zero number whose rounding is not zero keeps its sign. -/
theorem rn_neg_iff {q : ℚ} (h : rn f q ≠ 0) : rn f q < 0 ↔ q < 0 := by
  constructor
  · intro hq; by_contra hc
    have := rn_nonneg (f := f) (not_lt.1 hc); linarith
  · intro hq
    have := rn_mono (f := f) hq.le
    rw [rn_zero] at this; exact lt_of_le_of_ne this h

end D10
