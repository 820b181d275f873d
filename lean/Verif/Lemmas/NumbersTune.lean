import Verif.SpecTune
import Verif.Lemmas.NumbersDrawing
import Verif.Lemmas.HsvTrip
import Verif.Props.Tone

/-! # Averages, and the exponents made of them -/

namespace D10
open Scalar (lit)
open Spec

/-- A sum of 32-bit numbers between 0 and 1 is not larger than their number, and not larger than 2^24. -/
theorem sum_le_count (l : List F32) (hl : ∀ v ∈ l, Un v) :
    ∀ (s : F32) (k : Nat), s.fin = true → 0 ≤ s.val → s.val ≤ k → s.val ≤ 2 ^ 24 →
      (l.foldl FP.add s).fin = true ∧ 0 ≤ (l.foldl FP.add s).val ∧ (l.foldl FP.add s).val ≤ (k + l.length : Nat) ∧
        (l.foldl FP.add s).val ≤ 2 ^ 24 := by
  induction l with
  | nil => intro s k h1 h2 h3 h4; exact ⟨h1, h2, h3, h4⟩
  | cons v l ih =>
    intro s k h1 h2 h3 h4
    obtain ⟨v1, v2, v3⟩ := hl v (.head _)
    have big : rn b32 (2 ^ 24 + 1) = 2 ^ 24 := by decide +kernel
    have up := rn_mono (f := b32) (a := s.val + v.val) (b := 2 ^ 24 + 1) (by linarith)
    rw [big] at up
    have lo := rn_nonneg (f := b32) (q := s.val + v.val) (by linarith)
    have val := FP.ofRat_val (f := b32) (s := s.isNeg && v.isNeg) (q := s.val + v.val) (by
      rw [abs_of_nonneg lo]; exact up.trans_lt (by decide +kernel))
    rw [← FP.add_fin h1 v1] at val
    have cnt : rn b32 (s.val + v.val) ≤ (k + 1 : Nat) := by
      rcases Nat.lt_or_ge (2 ^ 24) (k + 1) with hk | hk
      · exact up.trans (by exact_mod_cast hk.le)
      · have r := (FP.int_finite (f := b32) ((k + 1 : Nat) : Int) (by
          rw [abs_of_nonneg (by positivity)]; norm_num [b32]; omega)).1
        have := rn_le_rep r (q := s.val + v.val) (by push_cast; linarith)
        exact_mod_cast this
    have := ih (fun w hw => hl w (.tail _ hw)) (FP.add s v) (k + 1) val.1 (by rw [val.2]; exact lo)
      (by rw [val.2]; exact cnt) (by rw [val.2]; exact up)
    rw [List.foldl_cons, List.length_cons]
    refine ⟨this.1, this.2.1, ?_, this.2.2.2⟩
    have e := this.2.2.1
    rw [show k + 1 + l.length = k + (l.length + 1) by omega] at e
    exact e

/-- The mean of 32-bit numbers between 0 and 1 is between 0 and 1. -/
theorem mean_unit {l : List F32} (hl : ∀ v ∈ l, Un v) (h0 : 0 < l.length) (h1 : l.length ≤ 2 ^ 32) :
    Un (FP.div (l.foldl FP.add (FP.ofRat b32 false 0)) (FP.ofRat b32 false ((l.length : Nat) : ℚ))) := by
  have z : (FP.ofRat b32 false 0).fin = true ∧ (FP.ofRat b32 false 0).val = 0 := by decide +kernel
  obtain ⟨a1, a2, a3, a4⟩ := sum_le_count l hl (FP.ofRat b32 false 0) 0 z.1 z.2.ge (by rw [z.2]; norm_num)
    (by rw [z.2]; norm_num)
  rw [Nat.zero_add] at a3
  have nb := nat_bd' (n := l.length) (k := 32) (by norm_num) h1
  have n1 := nat_ge' (n := l.length) (k := 32) (by norm_num) h0 h1
  have nv : (FP.ofRat b32 false ((l.length : Nat) : ℚ)).val = rn b32 (l.length : ℚ) :=
    (round_val (k := 32) (by norm_num) (by rw [abs_of_nonneg (by positivity)]; exact_mod_cast h1)).2
  generalize List.foldl FP.add (FP.ofRat b32 false 0) l = s at *
  have le : s.val ≤ (FP.ofRat b32 false ((l.length : Nat) : ℚ)).val := by
    rw [nv]
    rcases Nat.lt_or_ge (2 ^ 24) l.length with hk | hk
    · have r : IsRep b32 ((2 : ℚ) ^ 24) := ⟨1, 24, by decide, by decide, by decide +kernel⟩
      exact a4.trans (rep_le_rn r (by exact_mod_cast hk.le))
    · have r := (FP.int_finite (f := b32) (l.length : Int) (by
          rw [abs_of_nonneg (by positivity)]; norm_num [b32]; omega)).1
      have := rep_le_rn r (q := (l.length : ℚ)) (by simp)
      exact a3.trans (by exact_mod_cast this)
  generalize FP.ofRat b32 false ((l.length : Nat) : ℚ) = n at *
  have np : 0 < n.val := by linarith
  have q0 : 0 ≤ s.val / n.val := div_nonneg a2 np.le
  have q1 : s.val / n.val ≤ 1 := by rw [div_le_one np]; exact le
  rw [FP.div_fin a1 nb.fin np.ne']
  have v := round_val (s := s.isNeg ^^ n.isNeg) (k := 0) (q := s.val / n.val) (by norm_num) (by
    rw [abs_of_nonneg q0]; simpa using q1)
  refine ⟨v.1, ?_, ?_⟩
  · rw [v.2]; exact rn_nonneg q0
  · rw [v.2]
    refine rn_le_rep ?_ q1
    have := (FP.int_finite (f := b32) 1 (by norm_num [b32])).1
    simpa using this

/-- One divided by a number that is not negative. -/
theorem recip_pos {p : F32} (fp : p.fin = true) (h0 : 0 ≤ p.val) (hn : p.val = 0 → p.isNeg = false) [Libm b32] :
    (lit 0 <. FP.div (FP.ofRat b32 false 1) p) = true ∧ FP.div (FP.ofRat b32 false 1) p ≠ .nan := by
  have one : (FP.ofRat b32 false 1).fin = true ∧ (FP.ofRat b32 false 1).val = 1 := by decide +kernel
  refine ⟨?_, recip_number (fin_number fp)⟩
  rcases h0.eq_or_lt with e | pos
  · cases p with
    | nan => cases fp
    | inf s => cases fp
    | num q h => exact absurd e.symm h.1
    | zero s =>
      have : s = false := hn rfl
      subst this
      show FP.lt (FP.ofRat b32 false 0) (FP.div (FP.ofRat b32 false 1) (.zero false)) = true
      decide +kernel
  · have small : (lit 0 <. FP.ofRat b32 false (1 / 2 ^ 140)) = true := by
      show FP.lt (FP.ofRat b32 false 0) (FP.ofRat b32 false (1 / 2 ^ 140)) = true
      decide +kernel
    have le : (FP.ofRat b32 false (1 / 2 ^ 140) <=. (FP.div (FP.ofRat b32 false 1) p : F32)) = true := by
      rw [FP.div_fin one.1 fp pos.ne', one.2]
      refine FP.ofRat_le (one_div_le_one_div_of_le pos ?_)
      exact ((le_abs_self _).trans (fin_le_largest fp)).trans (by norm_num)
    by_contra h
    have h := LawfulScalar.total (lit 0 : F32) (FP.div (FP.ofRat b32 false 1) p) ((FP.isNan_false _).2 (fin_number lit0_unit.1))
      ((FP.isNan_false _).2 (FP.le_not_nan le).2) (eq_false_of_ne_true h)
    have := LawfulScalar.not_lt _ _ (LawfulScalar.le_trans _ _ _ le h)
    rw [this] at small; cases small


/-! ## Rounding into an interval -/

/-- A number between two 32-bit numbers is still between them after rounding. -/
theorem round_into {k : ℕ} {s : Bool} {a b q : ℚ} (hk : k ≤ 127) (ra : IsRep b32 a) (rb : IsRep b32 b) (h1 : a ≤ q)
    (h2 : q ≤ b) (ha : |a| ≤ 2 ^ k) (hb : |b| ≤ 2 ^ k) :
    (FP.ofRat b32 s q).fin = true ∧ a ≤ (FP.ofRat b32 s q).val ∧ (FP.ofRat b32 s q).val ≤ b := by
  have v := round_val (s := s) (q := q) hk (abs_le.2 ⟨(abs_le.1 ha).1.trans h1, h2.trans (abs_le.1 hb).2⟩)
  exact ⟨v.1, by rw [v.2]; exact rep_le_rn ra h1, by rw [v.2]; exact rn_le_rep rb h2⟩

theorem int_rep (n : Int) (h : |n| ≤ 2 ^ 24) : IsRep b32 (n : ℚ) := (FP.int_finite (f := b32) n (by simpa [b32] using h)).1

theorem tune_zero : IsRep b32 0 := by simpa using int_rep 0 (by norm_num)
theorem tune_one : IsRep b32 1 := by simpa using int_rep 1 (by norm_num)
theorem tune_neg_one : IsRep b32 (-1) := by simpa using int_rep (-1) (by norm_num)
theorem tune_half : IsRep b32 (1 / 2) := ⟨1, -1, by decide, by decide, by decide +kernel⟩
theorem tune_neg_half : IsRep b32 (-(1 / 2)) := ⟨-1, -1, by decide, by decide, by decide +kernel⟩

/-- A rounded number that is not negative has no minus sign. -/
theorem round_sign {q : ℚ} (h : 0 ≤ q) : (FP.ofRat b32 false q).isNeg = false := by
  unfold FP.ofRat
  split
  · split
    · rfl
    · exact decide_eq_false (not_lt.2 h)
  · split
    · exact decide_eq_false (not_lt.2 (rn_nonneg h))
    · exact decide_eq_false (not_lt.2 h)

variable [Libm b32]

/-- The exponent of the saturation for a gamma that is not negative is positive. -/
theorem gamma_pow_pos {g l : F32} (fg : g.fin = true) (g0 : 0 ≤ g.val) (hl : Un l) :
    (lit 0 <. get_gamma_pow g l) = true ∧ get_gamma_pow g l ≠ .nan := by
  have one : (FP.ofRat b32 false 1).fin = true ∧ (FP.ofRat b32 false 1).val = 1 ∧ (FP.ofRat b32 false 1).isNeg = false := by
    decide +kernel
  have two : (FP.ofRat b32 false 2).fin = true ∧ (FP.ofRat b32 false 2).val = 2 := by decide +kernel
  have half : (FP.ofRat b32 false 0.5).fin = true ∧ (FP.ofRat b32 false 0.5).val = 1 / 2 := by decide +kernel
  have zero : (FP.ofRat b32 false 0).fin = true ∧ (FP.ofRat b32 false 0).val = 0 := by decide +kernel
  -- the distance from one half
  have d : (FP.sub l (FP.ofRat b32 false 0.5)).fin = true ∧ -(1 / 2) ≤ (FP.sub l (FP.ofRat b32 false 0.5)).val ∧
      (FP.sub l (FP.ofRat b32 false 0.5)).val ≤ 1 / 2 := by
    rw [FP.sub_fin hl.1 half.1, half.2]
    exact round_into (k := 0) (by norm_num) tune_neg_half tune_half (by linarith [hl.2.1]) (by linarith [hl.2.2])
      (by norm_num) (by norm_num)
  have a := FP.abs_fin d.1
  have a1 : |(FP.sub l (FP.ofRat b32 false 0.5)).val| ≤ 1 / 2 := abs_le.2 ⟨by linarith [d.2.1], d.2.2⟩
  have m : Un (FP.mul (FP.abs (FP.sub l (FP.ofRat b32 false 0.5))) (FP.ofRat b32 false 2)) := by
    rw [FP.mul_fin a.1 two.1, two.2, a.2]
    exact round_into (k := 0) (by norm_num) tune_zero tune_one (by positivity) (by linarith) (by norm_num) (by norm_num)
  have f : Un (FP.sub (FP.ofRat b32 false 1) (FP.mul (FP.abs (FP.sub l (FP.ofRat b32 false 0.5))) (FP.ofRat b32 false 2))) := by
    rw [FP.sub_fin one.1 m.1, one.2.1]
    exact round_into (k := 0) (by norm_num) tune_zero tune_one (by linarith [m.2.2]) (by linarith [m.2.1]) (by norm_num)
      (by norm_num)
  have ng : (FP.lt g (FP.ofRat b32 false 0)) = false := by
    rw [FP.lt_fin fg zero.1, zero.2]; exact decide_eq_false (not_lt.2 g0)
  show (lit 0 <. FP.div (FP.ofRat b32 false 1) (if FP.lt g (FP.ofRat b32 false 0) = true then _ else
    FP.add (FP.ofRat b32 false 1) (FP.mul (FP.sub g (FP.ofRat b32 false 1)) (FP.sub (FP.ofRat b32 false 1)
      (FP.mul (FP.abs (FP.sub l (FP.ofRat b32 false 0.5))) (FP.ofRat b32 false 2)))))) = true ∧
    FP.div (FP.ofRat b32 false 1) (if FP.lt g (FP.ofRat b32 false 0) = true then _ else
    FP.add (FP.ofRat b32 false 1) (FP.mul (FP.sub g (FP.ofRat b32 false 1)) (FP.sub (FP.ofRat b32 false 1)
      (FP.mul (FP.abs (FP.sub l (FP.ofRat b32 false 0.5))) (FP.ofRat b32 false 2))))) ≠ .nan
  rw [if_neg (by rw [ng]; decide)]
  generalize FP.sub (FP.ofRat b32 false 1) (FP.mul (FP.abs (FP.sub l (FP.ofRat b32 false 0.5))) (FP.ofRat b32 false 2)) = fc at *
  have e1 : (FP.sub g (FP.ofRat b32 false 1)).fin = true := sub_small fg one.1 (by rw [one.2.1]; norm_num)
  have e2 : -1 ≤ (FP.sub g (FP.ofRat b32 false 1)).val := by
    have : (FP.ofRat b32 (g.isNeg && (FP.ofRat b32 false 1).neg.isNeg) (g.val - (FP.ofRat b32 false 1).val)).fin = true := by
      rw [← FP.sub_fin fg one.1]; exact e1
    rw [FP.sub_fin fg one.1, ofRat_fin_val this, one.2.1]
    exact rep_le_rn tune_neg_one (by linarith)
  generalize FP.sub g (FP.ofRat b32 false 1) = df at *
  have e3 : (FP.mul df fc).fin = true := scaled_fin' e1 f.1 (abs_le.2 ⟨by linarith [f.2.1], f.2.2⟩)
  have e4 : -1 ≤ (FP.mul df fc).val := by
    have h := e3
    rw [FP.mul_fin e1 f.1] at h ⊢
    rw [ofRat_fin_val h]
    refine rep_le_rn tune_neg_one ?_
    nlinarith [f.2.1, f.2.2]
  generalize FP.mul df fc = pr at *
  have e5 : (FP.add (FP.ofRat b32 false 1) pr).fin = true := add_small' one.1 e3 (by rw [one.2.1]; norm_num)
  have e6 := e5
  rw [FP.add_fin one.1 e3, one.2.1, one.2.2, Bool.false_and] at e6
  have e7 : (FP.add (FP.ofRat b32 false 1) pr) = FP.ofRat b32 false (1 + pr.val) := by
    rw [FP.add_fin one.1 e3, one.2.1, one.2.2, Bool.false_and]
  refine recip_pos e5 ?_ fun _ => ?_
  · rw [e7, ofRat_fin_val e6]; exact rn_nonneg (by linarith)
  · rw [e7]; exact round_sign (by linarith)

end D10
