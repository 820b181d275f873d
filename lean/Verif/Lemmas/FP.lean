import Verif.Float.FP
import Verif.Float.Real

/-! # What is needed about floating point numbers, and the laws both readings share -/

namespace D10
open Scalar

/-! ## Values of results -/

namespace FP
variable {f : Fmt}

theorem fin_rep {x : FP f} : x.fin = true → IsRep f x.val ∧ |x.val| < pow2 f.emax := by
  cases x <;> simp only [fin, val, Bool.false_eq_true, false_imp_iff, true_imp_iff]
  · exact ⟨IsRep.zero f, by rw [abs_zero]; exact pow2_pos _⟩
  · rename_i q h; exact h.2

theorem ofRat_val {s : Bool} {q : ℚ} (h : |rn f q| < pow2 f.emax) :
    (ofRat f s q).fin = true ∧ (ofRat f s q).val = rn f q := by
  unfold ofRat
  split
  · rename_i h0; exact ⟨rfl, h0.symm⟩
  · exact ⟨rfl, rfl⟩

theorem ofRat_of_le {s : Bool} {q r : ℚ} (hr : IsRep f r) (hr2 : r < pow2 f.emax) (h : |q| ≤ r) :
    (ofRat f s q).fin = true ∧ (ofRat f s q).val = rn f q :=
  ofRat_val (lt_of_le_of_lt (rn_abs_le hr h) hr2)

theorem ofRat_rep {s : Bool} {q : ℚ} (hr : IsRep f q) (h : |q| < pow2 f.emax) :
    (ofRat f s q).fin = true ∧ (ofRat f s q).val = q := by
  have := ofRat_val (f := f) (s := s) (q := q) (by rw [rn_rep hr]; exact h)
  rw [rn_rep hr] at this; exact this

/-- Integers up to `2^prec` are exact. -/
theorem int_finite (z : Int) (hz : |z| ≤ 2 ^ f.prec) :
    IsRep f (z : ℚ) ∧ |(z : ℚ)| < pow2 f.emax := by
  refine ⟨IsRep.int hz, ?_⟩
  have h1 : (|(z : ℚ)|) ≤ pow2 (f.prec : Int) := by rw [pow2_nat]; exact_mod_cast hz
  exact lt_of_le_of_lt h1 (pow2_lt_iff.2 f.hmax)

theorem ofRat_not_nan {s : Bool} {q : ℚ} : ofRat f s q ≠ nan := by
  unfold ofRat; split <;> (try split) <;> simp

theorem add_fin {x y : FP f} (hx : x.fin = true) (hy : y.fin = true) :
    add x y = ofRat f (x.isNeg && y.isNeg) (x.val + y.val) := by
  cases x <;> cases y <;> simp_all [fin, add]

theorem neg_fin {x : FP f} (hx : x.fin = true) : x.neg.fin = true ∧ x.neg.val = -x.val := by
  cases x <;> simp_all [fin, neg, val]

theorem sub_fin {x y : FP f} (hx : x.fin = true) (hy : y.fin = true) :
    sub x y = ofRat f (x.isNeg && y.neg.isNeg) (x.val - y.val) := by
  unfold sub
  rw [add_fin hx (neg_fin hy).1, (neg_fin hy).2, sub_eq_add_neg]

theorem mul_fin {x y : FP f} (hx : x.fin = true) (hy : y.fin = true) :
    mul x y = ofRat f (x.isNeg ^^ y.isNeg) (x.val * y.val) := by
  cases x <;> cases y <;> simp_all [fin, mul]

theorem div_fin {x y : FP f} (hx : x.fin = true) (hy : y.fin = true) (h0 : y.val ≠ 0) :
    div x y = ofRat f (x.isNeg ^^ y.isNeg) (x.val / y.val) := by
  cases x <;> cases y <;> simp_all [fin, div, val]

theorem abs_fin {x : FP f} (hx : x.fin = true) : x.abs.fin = true ∧ x.abs.val = |x.val| := by
  cases x with
  | nan => simp [fin] at hx
  | inf s => simp [fin] at hx
  | zero s => cases s <;> simp [abs, isNeg, neg, fin, val]
  | num q h =>
    unfold abs isNeg
    by_cases hq : q < 0
    · simp only [hq, decide_true, if_true, neg, fin, val, true_and]
      rw [abs_of_neg hq]
    · simp only [hq, decide_false, Bool.false_eq_true, if_false, fin, val, true_and]
      rw [abs_of_nonneg (not_lt.1 hq)]

theorem lt_fin {x y : FP f} (hx : x.fin = true) (hy : y.fin = true) :
    lt x y = decide (x.val < y.val) := by
  cases x <;> cases y <;> simp_all [fin, lt]

theorem eq_fin {x y : FP f} (hx : x.fin = true) (hy : y.fin = true) :
    eq x y = decide (x.val = y.val) := by
  cases x <;> cases y <;> simp_all [fin, eq]

theorem toInt_fin {x : FP f} (lo hi : Int) (hx : x.fin = true) :
    toInt lo hi x = max lo (min hi (trunc x.val)) := by
  cases x <;> simp_all [fin, toInt]

end FP

/-! ## Order laws that hold for floats and for exact numbers -/

/-- The laws of comparison that hold in both readings. "Not a number" values compare with nothing;
the others are totally ordered. -/
class LawfulScalar (F : Type) [Scalar F] : Prop where
  lit_isNan : ∀ q : ℚ, isNan (lit q : F) = false
  lit_mono : ∀ q r : ℚ, q ≤ r → ((lit q : F) <=. lit r) = true
  lt_nan_left : ∀ a b : F, isNan a = true → (a <. b) = false
  lt_nan_right : ∀ a b : F, isNan b = true → (a <. b) = false
  lt_irrefl : ∀ a : F, (a <. a) = false
  total : ∀ a b : F, isNan a = false → isNan b = false → (a <. b) = false → (b <=. a) = true
  not_lt : ∀ a b : F, (a <=. b) = true → (b <. a) = false
  le_trans : ∀ a b c : F, (a <=. b) = true → (b <=. c) = true → (a <=. c) = true
  mul_swap : ∀ a b : F, a *. b = b *. a

open LawfulScalar

noncomputable instance [Junk] : LawfulScalar ℝ where
  lit_isNan _ := Exact.isNan _
  lit_mono q r h := by rw [Exact.le, Exact.lit, Exact.lit]; exact_mod_cast h
  lt_nan_left a b h := by rw [Exact.isNan] at h; cases h
  lt_nan_right a b h := by rw [Exact.isNan] at h; cases h
  lt_irrefl a := by rw [Bool.eq_false_iff]; intro h; rw [Exact.lt] at h; exact _root_.lt_irrefl _ h
  total a b _ _ h := by
    rw [Exact.le]; rw [Bool.eq_false_iff] at h
    exact not_lt.1 fun h' => h ((Exact.lt a b).2 h')
  not_lt a b h := by
    rw [Exact.le] at h; rw [Bool.eq_false_iff]; intro h'; rw [Exact.lt] at h'
    exact absurd h' (_root_.not_lt.2 h)
  le_trans a b c h1 h2 := by rw [Exact.le] at *; exact h1.trans h2
  mul_swap a b := mul_comm (G := ℝ) a b

namespace FP
variable {f : Fmt} [Libm f]

theorem isNan_iff (x : FP f) : isNan x = true ↔ x = nan := by
  show (!(FP.eq x x)) = true ↔ _
  cases x <;> simp [FP.eq]

theorem isNan_false (x : FP f) : isNan x = false ↔ x ≠ nan := by
  rw [← Bool.not_eq_true, isNan_iff]

theorem isNan_fin {x : FP f} (h : x.fin = true) : isNan x = false := by
  rw [isNan_false]; intro h'; rw [h'] at h; simp [fin] at h

/-- Order on all non-NaN values: an extended rational. -/
theorem le_def (x y : FP f) : (x <=. y) = (FP.lt x y || FP.eq x y) := rfl

theorem le_fin {x y : FP f} (hx : x.fin = true) (hy : y.fin = true) :
    (x <=. y) = decide (x.val ≤ y.val) := by
  rw [le_def, lt_fin hx hy, eq_fin hx hy, Bool.eq_iff_iff]
  simp [le_iff_lt_or_eq]

theorem le_nan_left (y : FP f) : (nan <=. y) = false := by cases y <;> rfl
theorem le_nan_right (x : FP f) : (x <=. nan) = false := by cases x <;> rfl

theorem ofRat_mono {q r : ℚ} (h : q ≤ r) : (ofRat f false q <=. ofRat f false r) = true := by
  have hm := rn_mono (f := f) h
  have hq0 : rn f q ≠ 0 → (q < 0 ↔ rn f q < 0) := by
    intro hne
    constructor
    · intro hq
      have := rn_mono (f := f) hq.le
      rw [rn_zero] at this; exact lt_of_le_of_ne this hne
    · intro hq; by_contra hc
      have := rn_nonneg (f := f) (_root_.not_lt.1 hc); linarith
  have hr0 : rn f r ≠ 0 → (r < 0 ↔ rn f r < 0) := by
    intro hne
    constructor
    · intro hq
      have := rn_mono (f := f) hq.le
      rw [rn_zero] at this; exact lt_of_le_of_ne this hne
    · intro hq; by_contra hc
      have := rn_nonneg (f := f) (_root_.not_lt.1 hc); linarith
  by_cases h1 : |rn f q| < pow2 f.emax
  · by_cases h2 : |rn f r| < pow2 f.emax
    · have a := ofRat_val (s := false) h1
      have b := ofRat_val (s := false) h2
      rw [le_fin a.1 b.1, a.2, b.2]; simpa using hm
    · have a := ofRat_val (s := false) h1
      have hne : rn f r ≠ 0 := by
        intro h0; rw [h0, abs_zero] at h2; exact h2 (pow2_pos _)
      have hb : ofRat f false r = inf (decide (r < 0)) := by
        unfold ofRat; rw [dif_neg hne, dif_neg h2]
      have hpos : ¬ r < 0 := by
        intro hr
        have hr' := (hr0 hne).1 hr
        rw [abs_of_neg hr'] at h2
        have : -rn f q ≤ |rn f q| := neg_le_abs _
        linarith
      rw [hb, le_def]
      revert a; cases ofRat f false q <;> simp [fin, FP.lt, FP.eq, hpos]
  · have hne : rn f q ≠ 0 := by
      intro h0; rw [h0, abs_zero] at h1; exact h1 (pow2_pos _)
    have ha : ofRat f false q = inf (decide (q < 0)) := by
      unfold ofRat; rw [dif_neg hne, dif_neg h1]
    by_cases h2 : |rn f r| < pow2 f.emax
    · have b := ofRat_val (s := false) h2
      have hneg : q < 0 := by
        by_contra hc
        have : ¬ rn f q < 0 := fun h => hc ((hq0 hne).2 h)
        rw [abs_of_nonneg (_root_.not_lt.1 this)] at h1
        have : rn f r ≤ |rn f r| := le_abs_self _
        linarith
      rw [ha, le_def]
      revert b; cases ofRat f false r <;> simp [fin, FP.lt, FP.eq, hneg]
    · have hne' : rn f r ≠ 0 := by
        intro h0; rw [h0, abs_zero] at h2; exact h2 (pow2_pos _)
      have hb : ofRat f false r = inf (decide (r < 0)) := by
        unfold ofRat; rw [dif_neg hne', dif_neg h2]
      rw [ha, hb, le_def]
      by_cases c1 : q < 0
      · by_cases c2 : r < 0 <;> simp [FP.lt, FP.eq, c1, c2]
      · have c2 : ¬ r < 0 := by linarith
        simp [FP.lt, FP.eq, c1, c2]

omit [Libm f] in
theorem kinds (x : FP f) : x = nan ∨ (∃ s, x = inf s) ∨ x.fin = true := by
  cases x <;> simp [fin]

omit [Libm f] in
theorem lt_inf_fin {s : Bool} {y : FP f} (hy : y.fin = true) : FP.lt (inf s) y = s := by
  cases y <;> simp_all [fin, FP.lt]
omit [Libm f] in
theorem lt_fin_inf {s : Bool} {x : FP f} (hx : x.fin = true) : FP.lt x (inf s) = !s := by
  cases x <;> simp_all [fin, FP.lt]
omit [Libm f] in
theorem eq_inf_fin {s : Bool} {y : FP f} (hy : y.fin = true) : FP.eq (inf s) y = false := by
  cases y <;> simp_all [fin, FP.eq]
omit [Libm f] in
theorem eq_fin_inf {s : Bool} {x : FP f} (hx : x.fin = true) : FP.eq x (inf s) = false := by
  cases x <;> simp_all [fin, FP.eq]
theorem le_inf_inf {s t : Bool} : ((inf s : FP f) <=. inf t) = (s || !t) := by
  cases s <;> cases t <;> rfl
theorem le_inf_fin {s : Bool} {y : FP f} (hy : y.fin = true) : ((inf s : FP f) <=. y) = s := by
  rw [le_def, lt_inf_fin hy, eq_inf_fin hy]; simp
theorem le_fin_inf {s : Bool} {x : FP f} (hx : x.fin = true) : (x <=. (inf s : FP f)) = !s := by
  rw [le_def, lt_fin_inf hx, eq_fin_inf hx]; simp

end FP

instance {f : Fmt} [Libm f] : LawfulScalar (FP f) where
  lit_isNan q := (FP.isNan_false _).2 FP.ofRat_not_nan
  lit_mono _ _ h := FP.ofRat_mono h
  lt_nan_left a b h := by rw [FP.isNan_iff] at h; subst h; cases b <;> rfl
  lt_nan_right a b h := by rw [FP.isNan_iff] at h; subst h; cases a <;> rfl
  lt_irrefl a := by
    show FP.lt a a = false
    cases a <;> simp [FP.lt]
  total a b ha hb h := by
    rw [FP.isNan_false] at ha hb
    have h : FP.lt a b = false := h
    rcases FP.kinds a with rfl | ⟨s, rfl⟩ | hfa
    · exact absurd rfl ha
    · rcases FP.kinds b with rfl | ⟨t, rfl⟩ | hfb
      · exact absurd rfl hb
      · rw [FP.le_inf_inf]; cases s <;> cases t <;> simp_all [FP.lt]
      · rw [FP.lt_inf_fin hfb] at h; rw [FP.le_fin_inf hfb, h]; rfl
    · rcases FP.kinds b with rfl | ⟨t, rfl⟩ | hfb
      · exact absurd rfl hb
      · rw [FP.lt_fin_inf hfa] at h; rw [FP.le_inf_fin hfa]; simpa using h
      · rw [FP.lt_fin hfa hfb] at h; rw [FP.le_fin hfb hfa]; simpa using h
  not_lt a b h := by
    show FP.lt b a = false
    rcases FP.kinds a with rfl | ⟨s, rfl⟩ | hfa
    · rw [FP.le_nan_left] at h; cases h
    · rcases FP.kinds b with rfl | ⟨t, rfl⟩ | hfb
      · rw [FP.le_nan_right] at h; cases h
      · rw [FP.le_inf_inf] at h; cases s <;> cases t <;> simp_all [FP.lt]
      · rw [FP.le_inf_fin hfb] at h; rw [FP.lt_fin_inf hfb, h]; rfl
    · rcases FP.kinds b with rfl | ⟨t, rfl⟩ | hfb
      · rw [FP.le_nan_right] at h; cases h
      · rw [FP.le_fin_inf hfa] at h; rw [FP.lt_inf_fin hfa]; simpa using h
      · rw [FP.le_fin hfa hfb] at h; rw [FP.lt_fin hfb hfa]; simpa using h
  le_trans a b c h1 h2 := by
    rcases FP.kinds b with rfl | ⟨t, rfl⟩ | hfb
    · rw [FP.le_nan_right] at h1; cases h1
    · rcases FP.kinds a with rfl | ⟨s, rfl⟩ | hfa
      · rw [FP.le_nan_left] at h1; cases h1
      · rcases FP.kinds c with rfl | ⟨u, rfl⟩ | hfc
        · rw [FP.le_nan_right] at h2; cases h2
        · rw [FP.le_inf_inf] at *; cases s <;> cases t <;> cases u <;> simp_all
        · rw [FP.le_inf_fin hfc] at *; rw [FP.le_inf_inf] at h1
          cases s <;> cases t <;> simp_all
      · rw [FP.le_fin_inf hfa] at h1
        rcases FP.kinds c with rfl | ⟨u, rfl⟩ | hfc
        · rw [FP.le_nan_right] at h2; cases h2
        · rw [FP.le_inf_inf] at h2; rw [FP.le_fin_inf hfa]; cases t <;> cases u <;> simp_all
        · rw [FP.le_inf_fin hfc] at h2; cases t <;> simp_all
    · rcases FP.kinds a with rfl | ⟨s, rfl⟩ | hfa
      · rw [FP.le_nan_left] at h1; cases h1
      · rw [FP.le_inf_fin hfb] at h1
        rcases FP.kinds c with rfl | ⟨u, rfl⟩ | hfc
        · rw [FP.le_nan_right] at h2; cases h2
        · rw [FP.le_inf_inf, h1]; rfl
        · rw [FP.le_inf_fin hfc, h1]
      · rcases FP.kinds c with rfl | ⟨u, rfl⟩ | hfc
        · rw [FP.le_nan_right] at h2; cases h2
        · rw [FP.le_fin_inf hfb] at h2; rw [FP.le_fin_inf hfa, h2]
        · rw [FP.le_fin hfa hfb] at h1; rw [FP.le_fin hfb hfc] at h2; rw [FP.le_fin hfa hfc]
          simp only [decide_eq_true_eq] at *
          exact h1.trans h2
  mul_swap a b := by
    show FP.mul a b = FP.mul b a
    cases a <;> cases b <;> simp [FP.mul, FP.isNeg, mul_comm, Bool.xor_comm]

namespace FP
variable {f : Fmt}

theorem ofRat_zero (s : Bool) : ofRat f s 0 = zero s := by
  unfold ofRat; rw [dif_pos (rn_zero f), if_pos rfl]

/-- A non-zero finite number is determined by its value. -/
theorem ext_val {x y : FP f} (hx : x.fin = true) (hy : y.fin = true) (h : x.val = y.val)
    (h0 : x.val ≠ 0) : x = y := by
  cases x <;> cases y <;> simp_all [fin, val]

theorem sub_self_fin {x : FP f} (hx : x.fin = true) : ∃ s, sub x x = zero s :=
  ⟨_, by rw [sub_fin hx hx, sub_self, ofRat_zero]⟩

theorem zero_div_fin {s : Bool} {y : FP f} (hy : y.fin = true) (h0 : y.val ≠ 0) :
    ∃ t, div (zero s) y = zero t :=
  ⟨_, by rw [div_fin rfl hy h0]; simp [val, ofRat_zero]; rfl⟩

end FP

end D10
