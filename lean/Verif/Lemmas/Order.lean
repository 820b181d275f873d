import Verif.Lemmas.Near
import Verif.Lemmas.Ieee
import Verif.Lemmas.Color

/-! # Float operations keep the order of their arguments -/

namespace D10
open Spec LawfulScalar
open Scalar (lit)

namespace FP
variable {f : Fmt} [Libm f]

theorem le_not_nan {x y : FP f} (h : (x <=. y) = true) : x ≠ nan ∧ y ≠ nan := by
  constructor
  · rintro rfl; rw [le_nan_left] at h; cases h
  · rintro rfl; rw [le_nan_right] at h; cases h

theorem le_refl {x : FP f} (h : x ≠ nan) : (x <=. x) = true :=
  total x x ((isNan_false x).2 h) ((isNan_false x).2 h) (lt_irrefl x)

/-- The sign given to a zero result plays no part in comparisons. -/
theorem ofRat_same (s : Bool) (q : ℚ) :
    (ofRat f s q <=. ofRat f false q) = true ∧ (ofRat f false q <=. ofRat f s q) = true := by
  by_cases h0 : rn f q = 0
  · have a : ∀ s, ∃ t, ofRat f s q = zero t := by intro s; unfold ofRat; rw [dif_pos h0]; exact ⟨_, rfl⟩
    obtain ⟨t, ht⟩ := a s
    obtain ⟨u, hu⟩ := a false
    rw [ht, hu]; exact ⟨rfl, rfl⟩
  · have a : ofRat f s q = ofRat f false q := by unfold ofRat; rw [dif_neg h0, dif_neg h0]
    rw [a]; exact ⟨le_refl ofRat_not_nan, le_refl ofRat_not_nan⟩

theorem ofRat_le {s t : Bool} {q r : ℚ} (h : q ≤ r) : (ofRat f s q <=. ofRat f t r) = true :=
  le_trans _ _ _ (ofRat_same s q).1 (le_trans _ _ _ (ofRat_mono h) (ofRat_same t r).2)

theorem neg_le {x y : FP f} (h : (x <=. y) = true) : (y.neg <=. x.neg) = true := by
  rcases kinds x with rfl | ⟨s, rfl⟩ | hx
  · rw [le_nan_left] at h; cases h
  · rcases kinds y with rfl | ⟨t, rfl⟩ | hy
    · rw [le_nan_right] at h; cases h
    · rw [le_inf_inf] at h; simp only [neg]; rw [le_inf_inf]; cases s <;> cases t <;> simp_all
    · rw [le_inf_fin hy] at h; rw [show (inf s : FP f).neg = inf (!s) from rfl, le_fin_inf (neg_fin hy).1]; simp [h]
  · rcases kinds y with rfl | ⟨t, rfl⟩ | hy
    · rw [le_nan_right] at h; cases h
    · rw [le_fin_inf hx] at h; rw [show (inf t : FP f).neg = inf (!t) from rfl, le_inf_fin (neg_fin hx).1]; exact h
    · rw [le_fin hx hy, decide_eq_true_iff] at h
      rw [le_fin (neg_fin hy).1 (neg_fin hx).1, (neg_fin hy).2, (neg_fin hx).2, decide_eq_true_iff]
      linarith

omit [Libm f] in
theorem add_inf_fin {s : Bool} {y : FP f} (hy : y.fin = true) : add (inf s) y = inf s := by
  cases y <;> simp_all [fin, add]
omit [Libm f] in
theorem add_fin_inf {s : Bool} {x : FP f} (hx : x.fin = true) : add x (inf s) = inf s := by
  cases x <;> simp_all [fin, add]

theorem add_le {x y c d : FP f} (h1 : (x <=. y) = true) (h2 : (c <=. d) = true)
    (hx : add x c ≠ nan) (hy : add y d ≠ nan) : (add x c <=. add y d) = true := by
  have n1 := le_not_nan h1
  have n2 := le_not_nan h2
  rcases kinds x with rfl | ⟨s, rfl⟩ | fx
  · exact absurd rfl n1.1
  · rcases kinds c with rfl | ⟨t, rfl⟩ | fc
    · exact absurd rfl n2.1
    · cases s <;> cases t
      · rcases kinds y with rfl | ⟨u, rfl⟩ | fy
        · exact absurd rfl n1.2
        · cases u
          · rcases kinds d with rfl | ⟨v, rfl⟩ | fd
            · exact absurd rfl n2.2
            · cases v
              · rfl
              · rw [le_inf_inf] at h2; cases h2
            · rw [le_inf_fin fd] at h2; cases h2
          · rw [le_inf_inf] at h1; cases h1
        · rw [le_inf_fin fy] at h1; cases h1
      · simp [add] at hx
      · simp [add] at hx
      · have e : add (inf true) (inf true) = (inf true : FP f) := rfl
        rw [e]
        rcases kinds (add y d) with h | ⟨u, h⟩ | h
        · exact absurd h hy
        · rw [h, le_inf_inf]; rfl
        · rw [le_inf_fin h]
    · rw [add_inf_fin fc]
      cases s
      · rcases kinds y with rfl | ⟨u, rfl⟩ | fy
        · exact absurd rfl n1.2
        · cases u
          · rcases kinds d with rfl | ⟨v, rfl⟩ | fd
            · exact absurd rfl n2.2
            · cases v
              · rfl
              · simp [add] at hy
            · rw [add_inf_fin fd]; rfl
          · rw [le_inf_inf] at h1; cases h1
        · rw [le_inf_fin fy] at h1; cases h1
      · rcases kinds (add y d) with h | ⟨u, h⟩ | h
        · exact absurd h hy
        · rw [h, le_inf_inf]; rfl
        · rw [le_inf_fin h]
  · rcases kinds c with rfl | ⟨t, rfl⟩ | fc
    · exact absurd rfl n2.1
    · rw [add_fin_inf fx]
      cases t
      · rcases kinds d with rfl | ⟨v, rfl⟩ | fd
        · exact absurd rfl n2.2
        · cases v
          · rcases kinds y with rfl | ⟨u, rfl⟩ | fy
            · exact absurd rfl n1.2
            · cases u
              · rfl
              · simp [add] at hy
            · rw [add_fin_inf fy]; rfl
          · rw [le_inf_inf] at h2; cases h2
        · rw [le_inf_fin fd] at h2; cases h2
      · rcases kinds (add y d) with h | ⟨u, h⟩ | h
        · exact absurd h hy
        · rw [h, le_inf_inf]; rfl
        · rw [le_inf_fin h]
    · rcases kinds y with rfl | ⟨u, rfl⟩ | fy
      · exact absurd rfl n1.2
      · rw [le_fin_inf fx] at h1
        cases u
        · rcases kinds d with rfl | ⟨v, rfl⟩ | fd
          · exact absurd rfl n2.2
          · cases v
            · have e : add (inf false) (inf false) = (inf false : FP f) := rfl
              rw [e]
              rcases kinds (add x c) with h | ⟨u, h⟩ | h
              · exact absurd h hx
              · rw [h, le_inf_inf]; cases u <;> rfl
              · rw [le_fin_inf h]; rfl
            · simp [add] at hy
          · rw [add_inf_fin fd]
            rcases kinds (add x c) with h | ⟨u, h⟩ | h
            · exact absurd h hx
            · rw [h, le_inf_inf]; cases u <;> rfl
            · rw [le_fin_inf h]; rfl
        · cases h1
      · rcases kinds d with rfl | ⟨v, rfl⟩ | fd
        · exact absurd rfl n2.2
        · rw [le_fin_inf fc] at h2
          cases v
          · rw [add_fin_inf fy]
            rcases kinds (add x c) with h | ⟨u, h⟩ | h
            · exact absurd h hx
            · rw [h, le_inf_inf]; cases u <;> rfl
            · rw [le_fin_inf h]; rfl
          · cases h2
        · rw [add_fin fx fc, add_fin fy fd]
          rw [le_fin fx fy, decide_eq_true_iff] at h1
          rw [le_fin fc fd, decide_eq_true_iff] at h2
          exact ofRat_le (by linarith)

omit [Libm f] in
/-- A finite number can be added to anything. -/
theorem add_not_nan {x c : FP f} (hx : x ≠ nan) (hc : c.fin = true) : add x c ≠ nan := by
  rcases kinds x with rfl | ⟨s, rfl⟩ | fx
  · exact absurd rfl hx
  · rw [add_inf_fin hc]; simp
  · rw [add_fin fx hc]; exact ofRat_not_nan

omit [Libm f] in
theorem add_comm' (x y : FP f) : add x y = add y x := by
  cases x <;> cases y <;> simp [add, isNeg, Bool.and_comm, add_comm]
  all_goals (rename_i a b; cases a <;> cases b <;> simp)

omit [Libm f] in
theorem sub_not_nan {x c : FP f} (hx : x ≠ nan) (hc : c.fin = true) : sub x c ≠ nan :=
  add_not_nan hx (neg_fin hc).1

/-- Products of finite numbers. -/
theorem mul_le {x y k : FP f} (h : (x <=. y) = true) (hx : x.fin = true) (hy : y.fin = true)
    (hk : k.fin = true) (h0 : 0 ≤ k.val) : (mul x k <=. mul y k) = true := by
  rw [mul_fin hx hk, mul_fin hy hk]
  rw [le_fin hx hy, decide_eq_true_iff] at h
  exact ofRat_le (mul_le_mul_of_nonneg_right h h0)

omit [Libm f] in
theorem mul_not_nan {x k : FP f} (hx : x.fin = true) (hk : k.fin = true) : mul x k ≠ nan := by
  rw [mul_fin hx hk]; exact ofRat_not_nan

/-- Quotients by a positive finite number. -/
theorem div_le {x y k : FP f} (h : (x <=. y) = true) (hk : k.fin = true) (h0 : 0 < k.val) :
    (div x k <=. div y k) = true := by
  have hs : k.isNeg = false := by
    cases k with
    | nan => cases hk
    | inf s => cases hk
    | zero s => exact absurd h0 (_root_.lt_irrefl _)
    | num q h => simp only [isNeg, decide_eq_false_iff_not]; exact _root_.not_lt.2 h0.le
  have di : ∀ s, div (inf s) k = inf s := by
    intro s; cases k <;> simp_all [div, fin]
  have n := le_not_nan h
  rcases kinds x with rfl | ⟨s, rfl⟩ | fx
  · exact absurd rfl n.1
  · rw [di]
    rcases kinds y with rfl | ⟨t, rfl⟩ | fy
    · exact absurd rfl n.2
    · rw [di]; exact h
    · rw [le_inf_fin fy] at h; subst h
      rw [div_fin fy hk h0.ne']
      rcases kinds (ofRat f (y.isNeg ^^ k.isNeg) (y.val / k.val)) with h | ⟨u, h⟩ | h
      · exact absurd h ofRat_not_nan
      · rw [h, le_inf_inf]; rfl
      · rw [le_inf_fin h]
  · rcases kinds y with rfl | ⟨t, rfl⟩ | fy
    · exact absurd rfl n.2
    · rw [di]; rw [le_fin_inf fx] at h
      cases t
      · rw [div_fin fx hk h0.ne']
        rcases kinds (ofRat f (x.isNeg ^^ k.isNeg) (x.val / k.val)) with h | ⟨u, h⟩ | h
        · exact absurd h ofRat_not_nan
        · rw [h, le_inf_inf]; cases u <;> rfl
        · rw [le_fin_inf h]; rfl
      · cases h
    · rw [div_fin fx hk h0.ne', div_fin fy hk h0.ne']
      rw [le_fin fx fy, decide_eq_true_iff] at h
      exact ofRat_le (div_le_div_of_nonneg_right h h0.le)

end FP

section
variable {f : Fmt} [Libm f]

theorem lt_false_of_le {x y : FP f} (h : (x <=. y) = true) : (y <. x) = false := LawfulScalar.not_lt _ _ h

theorem le_of_lt {x y : FP f} (h : (x <. y) = true) : (x <=. y) = true := by
  show (FP.lt x y || FP.eq x y) = true
  rw [show FP.lt x y = true from h]; rfl

/-- Clamping to [0, 1] keeps the order. -/
theorem clamp01_le {x y : FP f} (h : (x <=. y) = true) : (clamp01 x <=. clamp01 y) = true := by
  have n := FP.le_not_nan h
  have l0 : (lit 0 : FP f) ≠ FP.nan := FP.ofRat_not_nan
  have l1 : (lit 1 : FP f) ≠ FP.nan := FP.ofRat_not_nan
  have l01 : ((lit 0 : FP f) <=. lit 1) = true := lit_mono 0 1 (by norm_num)
  have tot : ∀ {a b : FP f}, a ≠ FP.nan → b ≠ FP.nan → ¬ (a <. b) = true → (b <=. a) = true := by
    intro a b ha hb hab
    exact total a b ((FP.isNan_false _).2 ha) ((FP.isNan_false _).2 hb) (by simpa using hab)
  unfold clamp01 Scalar.clamp
  split
  · split
    · exact FP.le_refl l0
    · split
      · exact l01
      · rename_i h1 h2 h3
        exact tot n.2 l0 h2
  · rename_i hx0
    split
    · rename_i hx1
      split
      · rename_i hy
        have := le_trans _ _ _ (tot n.1 l0 hx0) h
        rw [lt_false_of_le this] at hy; cases hy
      · split
        · exact FP.le_refl l1
        · rename_i hy
          have := le_trans _ _ _ (le_of_lt hx1) h
          exact this
    · rename_i hx1
      split
      · rename_i hy
        have := le_trans _ _ _ (tot n.1 l0 hx0) h
        rw [lt_false_of_le this] at hy; cases hy
      · split
        · exact tot l1 n.1 hx1
        · exact h

/-- Two non-negative values in order. -/
structure Rising (x y : FP f) : Prop where
  nonneg : (lit 0 <=. x) = true
  le : (x <=. y) = true

namespace Rising
variable {x y c d k : FP f}

theorem not_nan (h : Rising x y) : x ≠ FP.nan ∧ y ≠ FP.nan := FP.le_not_nan h.le

theorem lit0 : (lit 0 : FP f).fin = true ∧ (lit 0 : FP f).val = 0 := by
  have : (lit 0 : FP f) = FP.zero false := FP.ofRat_zero false
  rw [this]; exact ⟨rfl, rfl⟩

theorem of_val (hx : x.fin = true) (h0 : 0 ≤ x.val) (h : (x <=. y) = true) :
    Rising x y :=
  ⟨by rw [FP.le_fin lit0.1 hx, lit0.2]; simpa using h0, h⟩

theorem pos_inf (h : ((lit 0 : FP f) <=. x) = true) : x.fin = true ∨ x = FP.inf false := by
  rcases FP.kinds x with rfl | ⟨s, rfl⟩ | hx
  · rw [FP.le_nan_right] at h; cases h
  · rw [FP.le_fin_inf lit0.1] at h; right; cases s
    · rfl
    · cases h
  · exact .inl hx

theorem sum_not_nan {a b : FP f} (ha : ((lit 0 : FP f) <=. a) = true)
    (hb : ((lit 0 : FP f) <=. b) = true) : FP.add a b ≠ FP.nan := by
  rcases pos_inf hb with h | rfl
  · exact FP.add_not_nan (FP.le_not_nan ha).2 h
  · rcases pos_inf ha with h | rfl
    · rw [FP.add_fin_inf h]; simp
    · simp [FP.add]

theorem add_nonneg {a b : FP f} (ha : ((lit 0 : FP f) <=. a) = true)
    (hb : ((lit 0 : FP f) <=. b) = true) : ((lit 0 : FP f) <=. a +. b) = true := by
  have h := FP.add_le ha hb (by
    rw [FP.add_fin lit0.1 lit0.1]; exact FP.ofRat_not_nan) (sum_not_nan ha hb)
  have e : FP.add (lit 0) (lit 0) = (lit 0 : FP f) := by
    rw [show (lit 0 : FP f) = FP.zero false from FP.ofRat_zero false]
    simp [FP.add, FP.isNeg, FP.val, FP.ofRat_zero]
  rw [e] at h; exact h

theorem add (h : Rising x y) (g : Rising c d) : Rising (x +. c) (y +. d) :=
  ⟨add_nonneg h.nonneg g.nonneg,
    FP.add_le h.le g.le (sum_not_nan h.nonneg g.nonneg)
      (sum_not_nan (le_trans _ _ _ h.nonneg h.le) (le_trans _ _ _ g.nonneg g.le))⟩

theorem mul (h : Rising x y) (hx : x.fin = true) (hy : y.fin = true) (hk : k.fin = true)
    (h0 : 0 ≤ k.val) : Rising (x *. k) (y *. k) := by
  refine ⟨?_, FP.mul_le h.le hx hy hk h0⟩
  have h' := h.nonneg
  rw [FP.le_fin lit0.1 hx, lit0.2, decide_eq_true_iff] at h'
  show (lit 0 <=. FP.mul x k) = true
  rw [FP.mul_fin hx hk, show (lit 0 : FP f) = FP.ofRat f false 0 from rfl]
  exact FP.ofRat_le (mul_nonneg h' h0)

theorem mul_left (h : Rising x y) (hx : x.fin = true) (hy : y.fin = true) (hk : k.fin = true)
    (h0 : 0 ≤ k.val) : Rising (k *. x) (k *. y) := by
  rw [LawfulScalar.mul_swap k, LawfulScalar.mul_swap k]; exact h.mul hx hy hk h0

theorem div (h : Rising x y) (hk : k.fin = true) (h0 : 0 < k.val) : Rising (x /. k) (y /. k) := by
  refine ⟨?_, FP.div_le h.le hk h0⟩
  have e := FP.div_le h.nonneg hk h0
  rw [FP.div_fin lit0.1 hk h0.ne', lit0.2, zero_div, FP.ofRat_zero] at e
  refine le_trans _ _ _ ?_ e
  rw [FP.le_fin lit0.1 rfl, lit0.2]; simp [FP.val]

theorem clamp (h : Rising x y) : Rising (clamp01 x) (clamp01 y) := by
  refine ⟨?_, clamp01_le h.le⟩
  have := clamp01_le h.nonneg
  rwa [clamp01_id (FP.le_refl FP.ofRat_not_nan) (lit_mono 0 1 (by norm_num))] at this

theorem rfl' (h : ((lit 0 : FP f) <=. x) = true) : Rising x x := ⟨h, FP.le_refl (FP.le_not_nan h).2⟩

end Rising
end

/-- Adding a number between -1 and 1 to a finite number does not overflow. -/
theorem FP.add_small {x c : F32} (hx : x.fin = true) (hc : c.fin = true) (h : |x.val| ≤ 1) :
    (FP.add x c).fin = true := by
  rw [FP.add_fin hx hc]
  refine (FP.ofRat_val ?_).1
  rw [rn_overflow]
  unfold TooLarge
  rw [not_le]
  have hcl : |c.val| ≤ largest b32 := by
    obtain ⟨⟨m, e, hm, -, he⟩, hlt⟩ := fin_rep hc
    have hp : b32.prec = 24 := rfl
    have hx : b32.emax = 128 := rfl
    rw [he, abs_mul, abs_of_pos (pow2_pos e)] at hlt ⊢
    rw [hp] at hm
    unfold largest
    rw [hp, hx, ← pow2_eq]
    have hm' : (|m| : ℤ) ≤ 2 ^ 24 - 1 := by omega
    have hmq : |(m : ℚ)| ≤ 2 ^ 24 - 1 := by exact_mod_cast hm'
    rcases le_or_gt e 104 with h | h
    · have : pow2 e ≤ pow2 104 := pow2_le h
      calc |(m : ℚ)| * pow2 e ≤ (2 ^ 24 - 1) * pow2 104 :=
            mul_le_mul hmq this (pow2_pos _).le (by norm_num)
        _ = _ := by norm_num
    · obtain ⟨z, hz⟩ := pow2_int (show 0 ≤ e - 104 by omega)
      have hs : pow2 e = z * pow2 104 := by rw [← hz, ← pow2_add]; congr 1; omega
      rw [hs, hx, show (128 : ℤ) = 24 + 104 by norm_num, pow2_add, ← mul_assoc] at hlt
      have h104 := pow2_pos 104
      have h1 := lt_of_mul_lt_mul_right hlt h104.le
      have h24 : pow2 24 = (2 ^ 24 : ℤ) := by rw [show (24 : ℤ) = ((24 : ℕ) : ℤ) from rfl, pow2_nat]; norm_num
      rw [h24] at h1
      have h2 : |m| * z < 2 ^ 24 := by exact_mod_cast h1
      have h3 : |m| * z ≤ 2 ^ 24 - 1 := by omega
      rw [hs, ← mul_assoc]
      have h4 : |(m : ℚ)| * z ≤ 2 ^ 24 - 1 := by exact_mod_cast h3
      calc |(m : ℚ)| * z * pow2 104 ≤ (2 ^ 24 - 1) * pow2 104 := mul_le_mul_of_nonneg_right h4 h104.le
        _ = _ := by norm_num
  have := abs_add_le x.val c.val
  have e : (2 : ℚ) ^ (b32.emax - b32.prec) / 2 > 1 := by
    rw [show b32.emax - b32.prec = ((104 : ℕ) : ℤ) from rfl, zpow_natCast]; norm_num
  linarith

end D10
