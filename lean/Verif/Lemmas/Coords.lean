import Verif.Lemmas.F32
import Verif.SpecSample
import Verif.Lemmas.Exact

/-!
# Coordinates computed by resize and rotate stay far away from the limits of `i32`

In binary32 every operation on a positive number of reasonable magnitude changes it by a factor
between `1/A` and `A = 1 + 2^-23`.
-/

namespace D10
open Spec

/-- What the geometric operations need to know about the numbers they compute positions with. It is
proved below for binary32 and for exact arithmetic. -/
class Coords (F : Type) [Scalar F] : Prop where
  /-- positions computed by resize -/
  scaled : ∀ m n x : Nat, x < n → n ≤ 1073741823 → 0 < m → m ≤ 1073741823 →
    -1 ≤ base (scaledPos m n x : F) ∧ base (scaledPos m n x : F) ≤ 1073743872
  /-- a position whose rounded value is in an image -/
  rounded : ∀ v : F, 0 ≤ Scalar.asI32 (Scalar.round v) → Scalar.asI32 (Scalar.round v) < 1073741824 →
    -1 ≤ base v ∧ base v ≤ 1073741824
  /-- the window size of the automatic filter -/
  auto : ∀ m n m' n' : Nat, 0 < n → n < m → m ≤ 134217728 → 0 < n' → n' < m' → m' ≤ 134217728 →
    3 ≤ autoSize (Scalar.ofNat n /. Scalar.ofNat m : F) (Scalar.ofNat n' /. Scalar.ofNat m') ∧
    autoSize (Scalar.ofNat n /. Scalar.ofNat m : F) (Scalar.ofNat n' /. Scalar.ofNat m') ≤ 268436480

/-! ## Binary32 -/

/-- `1 + 2^-23` -/
def relA : ℚ := 1 + 1 / 8388608

theorem relA_pos : 0 < relA := by norm_num [relA]
theorem relA_one : 1 ≤ relA := by norm_num [relA]

theorem rn_rel {q : ℚ} (h0 : pow2 (-100) ≤ q) : q / relA ≤ rn b32 q ∧ rn b32 q ≤ q * relA := by
  have hq : 0 < q := lt_of_lt_of_le (pow2_pos _) h0
  have he := rn_err b32 q
  obtain ⟨hl, _⟩ := ilog2_spec hq.ne'
  rw [abs_of_pos hq] at hl
  have hil : -100 ≤ ilog2 q := le_ilog2 hq.ne' (by rw [abs_of_pos hq]; exact h0)
  have hu : ulpExp b32 q = ilog2 q - 23 := by
    unfold ulpExp
    show max (ilog2 q - (24 - 1 : Nat)) (-149) = _
    omega
  rw [hu, pow2_sub] at he
  have h23 : pow2 23 = 8388608 := by decide +kernel
  rw [h23, abs_le] at he
  have hA : relA = 1 + 1 / 8388608 := rfl
  constructor
  · rw [div_le_iff₀ relA_pos, hA]
    nlinarith
  · rw [hA]
    nlinarith

/-- `x` is `q` up to `k` roundings. -/
structure Near (x : F32) (q : ℚ) (k : Nat) : Prop where
  fin : x.fin = true
  pos : 0 < q
  lo : q / relA ^ k ≤ x.val
  hi : x.val ≤ q * relA ^ k

namespace Near

theorem val_pos {x : F32} {q k} (h : Near x q k) : 0 < x.val :=
  lt_of_lt_of_le (div_pos h.pos (pow_pos relA_pos _)) h.lo

theorem relA_pow_le {k : Nat} (hk : k ≤ 16) : relA ^ k ≤ 2 := by
  calc relA ^ k ≤ relA ^ 16 := pow_le_pow_right₀ relA_one hk
    _ ≤ 2 := by norm_num [relA]

/-- Rounding a number that is itself near `q`. -/
theorem ofRat {r q : ℚ} {k : Nat} {s : Bool} (hq : 0 < q) (hlo : q / relA ^ k ≤ r)
    (hhi : r ≤ q * relA ^ k) (hk : k ≤ 15) (h1 : pow2 (-99) ≤ q) (h2 : q ≤ pow2 99) :
    Near (FP.ofRat b32 s r) q (k + 1) := by
  have hk2 := relA_pow_le (show k ≤ 16 by omega)
  have hkp := pow_pos relA_pos k
  have hr1 : pow2 (-100) ≤ r := by
    refine le_trans ?_ hlo
    rw [le_div_iff₀ hkp]
    have e : pow2 (-99) = 2 * pow2 (-100) := by
      have := pow2_succ (-100); norm_num at this; exact this
    have := pow2_pos (-100)
    nlinarith
  have hrp : 0 < r := lt_of_lt_of_le (pow2_pos _) hr1
  have hr2 : |r| ≤ pow2 100 := by
    rw [abs_of_pos hrp]
    refine le_trans hhi ?_
    have e : pow2 100 = 2 * pow2 99 := by
      have := pow2_succ 99; norm_num at this; exact this
    nlinarith
  obtain ⟨hf, hv⟩ := FP.ofRat_small (s := s) (q := r) (k := 100) (by decide) (by decide) hr2
  obtain ⟨ha, hb⟩ := rn_rel hr1
  refine ⟨hf, hq, ?_, ?_⟩
  · rw [hv, pow_succ, ← div_div]
    exact le_trans (div_le_div_of_nonneg_right hlo relA_pos.le) ha
  · rw [hv, pow_succ, ← mul_assoc]
    exact le_trans hb (mul_le_mul_of_nonneg_right hhi relA_pos.le)

theorem lit {q : ℚ} {s : Bool} (h1 : pow2 (-99) ≤ q) (h2 : q ≤ pow2 99) :
    Near (FP.ofRat b32 s q) q 1 :=
  ofRat (k := 0) (lt_of_lt_of_le (pow2_pos _) h1) (by simp) (by simp) (by omega) h1 h2

theorem mono {x : F32} {q k l} (h : Near x q k) (hkl : k ≤ l) : Near x q l := by
  have := pow_le_pow_right₀ relA_one hkl
  refine ⟨h.fin, h.pos, le_trans ?_ h.lo, le_trans h.hi ?_⟩
  · exact div_le_div_of_nonneg_left h.pos.le (pow_pos relA_pos _) this
  · exact mul_le_mul_of_nonneg_left this h.pos.le

theorem div {x y : F32} {p q : ℚ} {k l : Nat} (hx : Near x p k) (hy : Near y q l)
    (hkl : k + l ≤ 15) (h1 : pow2 (-99) ≤ p / q) (h2 : p / q ≤ pow2 99) :
    Near (FP.div x y) (p / q) (k + l + 1) := by
  rw [FP.div_fin hx.fin hy.fin hy.val_pos.ne']
  have hk := pow_pos relA_pos k
  have hl := pow_pos relA_pos l
  refine ofRat (div_pos hx.pos hy.pos) ?_ ?_ hkl h1 h2
  · rw [pow_add, le_div_iff₀ hy.val_pos]
    have e : p / q / (relA ^ k * relA ^ l) * (q * relA ^ l) = p / relA ^ k := by
      have := hx.pos; have := hy.pos; field_simp
    calc p / q / (relA ^ k * relA ^ l) * y.val ≤ p / q / (relA ^ k * relA ^ l) * (q * relA ^ l) :=
          mul_le_mul_of_nonneg_left hy.hi
            (div_nonneg (div_pos hx.pos hy.pos).le (mul_pos hk hl).le)
      _ = p / relA ^ k := e
      _ ≤ x.val := hx.lo
  · rw [pow_add, div_le_iff₀ hy.val_pos]
    have e : p / q * (relA ^ k * relA ^ l) * (q / relA ^ l) = p * relA ^ k := by
      have := hx.pos; have := hy.pos; field_simp
    calc x.val ≤ p * relA ^ k := hx.hi
      _ = p / q * (relA ^ k * relA ^ l) * (q / relA ^ l) := e.symm
      _ ≤ _ := mul_le_mul_of_nonneg_left hy.lo
            (mul_nonneg (div_pos hx.pos hy.pos).le (mul_pos hk hl).le)

theorem mul {x y : F32} {p q : ℚ} {k l : Nat} (hx : Near x p k) (hy : Near y q l)
    (hkl : k + l ≤ 15) (h1 : pow2 (-99) ≤ p * q) (h2 : p * q ≤ pow2 99) :
    Near (FP.mul x y) (p * q) (k + l + 1) := by
  rw [FP.mul_fin hx.fin hy.fin]
  have hk := pow_pos relA_pos k
  have hl := pow_pos relA_pos l
  refine ofRat (mul_pos hx.pos hy.pos) ?_ ?_ hkl h1 h2
  · rw [pow_add, ← div_mul_div_comm]
    exact mul_le_mul hx.lo hy.lo (div_nonneg hy.pos.le hl.le) hx.val_pos.le
  · rw [pow_add, mul_mul_mul_comm]
    exact mul_le_mul hx.hi hy.hi hy.val_pos.le (mul_nonneg hx.pos.le hk.le)

theorem add {x y : F32} {p q : ℚ} {k : Nat} (hx : Near x p k) (hy : Near y q k)
    (hk : k ≤ 15) (h1 : pow2 (-99) ≤ p + q) (h2 : p + q ≤ pow2 99) :
    Near (FP.add x y) (p + q) (k + 1) := by
  rw [FP.add_fin hx.fin hy.fin]
  refine ofRat (add_pos hx.pos hy.pos) ?_ ?_ hk h1 h2
  · rw [add_div]; exact add_le_add hx.lo hy.lo
  · rw [add_mul]; exact add_le_add hx.hi hy.hi

end Near

theorem pow2_m99 : pow2 (-99) ≤ 1 / 4294967296 := by
  have : pow2 (-32) = 1 / 4294967296 := by decide +kernel
  rw [← this]; exact pow2_le (by decide)
theorem pow2_p99 : 4294967296 * 4294967296 ≤ pow2 99 := by
  have : pow2 64 = 4294967296 * 4294967296 := by decide +kernel
  rw [← this]; exact pow2_le (by decide)

/-- `floor` of a finite number between integer bounds. -/
theorem FP.floor_bounds {f : Fmt} {x : FP f} (hx : x.fin = true) {a b : Int} (ha : IsRep f (a : ℚ))
    (hb : IsRep f (b : ℚ)) (hb2 : |(a : ℚ)| < pow2 f.emax) (hb3 : |(b : ℚ)| < pow2 f.emax)
    (h0 : a ≤ ⌊x.val⌋) (h1 : ⌊x.val⌋ ≤ b) (g : ℚ → Int) (hg : g = Int.floor) :
    (FP.integral g x).fin = true ∧ (a : ℚ) ≤ (FP.integral g x).val ∧ (FP.integral g x).val ≤ b := by
  subst hg
  cases x with
  | nan => simp [fin] at hx
  | inf s => simp [fin] at hx
  | zero s =>
    simp [FP.val] at h0 h1
    refine ⟨rfl, ?_, ?_⟩
    · show (a : ℚ) ≤ 0; exact_mod_cast h0
    · show (0 : ℚ) ≤ b; exact_mod_cast h1
  | num q h =>
    have h0' : (a : ℚ) ≤ (⌊q⌋ : ℚ) := by exact_mod_cast h0
    have h1' : (⌊q⌋ : ℚ) ≤ b := by exact_mod_cast h1
    have l := rep_le_rn ha h0'
    have u := rn_le_rep hb h1'
    have := FP.ofRat_val (f := f) (s := decide (q < 0)) (q := (⌊q⌋ : ℚ))
      (by
        rw [abs_lt] at *
        exact ⟨lt_of_lt_of_le hb2.1 l, lt_of_le_of_lt u hb3.2⟩)
    refine ⟨this.1, ?_, ?_⟩
    · show _ ≤ (FP.ofRat f _ _).val; rw [this.2]; exact l
    · show (FP.ofRat f _ _).val ≤ _; rw [this.2]; exact u

theorem FP.trunc_bounds {q : ℚ} {a b : Int} (h0 : (a : ℚ) ≤ q) (h1 : q ≤ b) :
    a ≤ FP.trunc q ∧ FP.trunc q ≤ b := by
  unfold FP.trunc
  split
  · exact ⟨Int.cast_le.1 (le_trans h0 (Int.le_ceil q)), Int.ceil_le.2 h1⟩
  · exact ⟨Int.le_floor.2 h0, Int.cast_le.1 (le_trans (Int.floor_le q) h1)⟩

theorem rep_b32 (z : Int) (m : Int) (e : Nat) (h : z = m * 2 ^ e) (hm : |m| < 16777216) (he : e < 100) :
    IsRep b32 (z : ℚ) ∧ |(z : ℚ)| < pow2 b32.emax := by
  have hz : (z : ℚ) = m * pow2 (e : Int) := by rw [pow2_nat, h]; push_cast; rfl
  refine ⟨⟨m, e, hm, by show (-149 : Int) ≤ e; omega, hz⟩, ?_⟩
  rw [hz, abs_mul, abs_of_pos (pow2_pos _)]
  have h1 : (|(m : ℚ)|) ≤ pow2 24 := by
    have : pow2 24 = 16777216 := by decide +kernel
    rw [this]; exact_mod_cast hm.le
  calc |(m : ℚ)| * pow2 e ≤ pow2 24 * pow2 e := mul_le_mul_of_nonneg_right h1 (pow2_pos _).le
    _ = pow2 (24 + e) := (pow2_add _ _).symm
    _ < pow2 b32.emax := pow2_lt_iff.2 (by show 24 + (e : Int) < 128; omega)

theorem FP.asI32_floor [Libm b32] {x : F32} (hx : x.fin = true) {a b : Int}
    (ha : IsRep b32 (a : ℚ) ∧ |(a : ℚ)| < pow2 b32.emax)
    (hb : IsRep b32 (b : ℚ) ∧ |(b : ℚ)| < pow2 b32.emax)
    (h0 : (a : ℚ) ≤ x.val) (h1 : x.val < b + 1) (ha2 : -2147483648 ≤ a) (hb2 : b ≤ 2147483647) :
    a ≤ base x ∧ base x ≤ b := by
  obtain ⟨f1, f2, f3⟩ := FP.floor_bounds hx ha.1 hb.1 ha.2 hb.2 (Int.le_floor.2 h0)
    (by have := Int.floor_lt.2 (show x.val < ((b + 1 : Int) : ℚ) by push_cast; exact h1); omega)
    Int.floor rfl
  obtain ⟨t1, t2⟩ := FP.trunc_bounds f2 f3
  show a ≤ FP.toInt _ _ (FP.integral Int.floor x) ∧ FP.toInt _ _ (FP.integral Int.floor x) ≤ b
  rw [FP.toInt_fin _ _ f1]
  omega

theorem FP.toInt_ofRat_le {lo hi z : Int} {s : Bool} {q : ℚ}
    (hz : IsRep b32 (z : ℚ) ∧ |(z : ℚ)| < pow2 b32.emax) (h : q ≤ z) (h1 : lo ≤ z) :
    FP.toInt lo hi (FP.ofRat b32 s q) ≤ z := by
  have hr := rn_le_rep hz.1 h
  unfold FP.ofRat
  by_cases h0 : rn b32 q = 0
  · rw [dif_pos h0]
    rw [h0] at hr
    have : (0 : Int) ≤ z := by exact_mod_cast hr
    rw [FP.toInt_fin _ _ rfl]
    have : FP.trunc (0 : ℚ) = 0 := by simp [FP.trunc]
    show max lo (min hi (FP.trunc 0)) ≤ z
    omega
  rw [dif_neg h0]
  by_cases h2 : |rn b32 q| < pow2 b32.emax
  · rw [dif_pos h2, FP.toInt_fin _ _ rfl]
    show max lo (min hi (FP.trunc (rn b32 q))) ≤ z
    have : FP.trunc (rn b32 q) ≤ z := by
      unfold FP.trunc
      split
      · exact Int.ceil_le.2 hr
      · exact Int.cast_le.1 (le_trans (Int.floor_le _) hr)
    omega
  · rw [dif_neg h2]
    by_cases hq : q < 0
    · simp only [hq, decide_true]; exact h1
    · exfalso
      apply h2
      rw [abs_of_nonneg (rn_nonneg (not_lt.1 hq))]
      exact lt_of_le_of_lt (le_trans hr (le_abs_self _)) hz.2

theorem FP.le_toInt_ofRat {lo hi z : Int} {s : Bool} {q : ℚ}
    (hz : IsRep b32 (z : ℚ) ∧ |(z : ℚ)| < pow2 b32.emax) (h : (z : ℚ) ≤ q) (h1 : z ≤ hi) :
    z ≤ FP.toInt lo hi (FP.ofRat b32 s q) := by
  have hr := rep_le_rn hz.1 h
  unfold FP.ofRat
  by_cases h0 : rn b32 q = 0
  · rw [dif_pos h0]
    rw [h0] at hr
    have : z ≤ (0 : Int) := by exact_mod_cast hr
    rw [FP.toInt_fin _ _ rfl]
    have : FP.trunc (0 : ℚ) = 0 := by simp [FP.trunc]
    show z ≤ max lo (min hi (FP.trunc 0))
    omega
  rw [dif_neg h0]
  by_cases h2 : |rn b32 q| < pow2 b32.emax
  · rw [dif_pos h2, FP.toInt_fin _ _ rfl]
    show z ≤ max lo (min hi (FP.trunc (rn b32 q)))
    have : z ≤ FP.trunc (rn b32 q) := by
      unfold FP.trunc
      split
      · exact Int.cast_le.1 (le_trans hr (Int.le_ceil _))
      · exact Int.le_floor.2 hr
    omega
  · rw [dif_neg h2]
    by_cases hq : q < 0
    · exfalso
      apply h2
      have : rn b32 q ≤ 0 := by
        have := rn_nonneg (f := b32) (q := -q) (by linarith)
        rw [rn_neg] at this; linarith
      rw [abs_of_nonpos this]
      exact lt_of_le_of_lt (le_trans (neg_le_neg hr) (neg_le_abs _)) hz.2
    · simp only [hq, decide_false]; exact h1

theorem near_nat [Libm b32] (n : Nat) (h0 : 0 < n) (h1 : n ≤ 1073741823) :
    Near (Scalar.ofNat n : F32) n 1 := by
  have h0' : (1 : ℚ) ≤ n := by exact_mod_cast h0
  have h1' : (n : ℚ) ≤ 1073741823 := by exact_mod_cast h1
  exact Near.lit (by linarith [pow2_m99]) (by linarith [pow2_p99])

theorem near_scale [Libm b32] (m n : Nat) (hn : 0 < n) (hn2 : n ≤ 1073741823) (hm : 0 < m)
    (hm2 : m ≤ 1073741823) :
    Near (Scalar.ofNat n /. Scalar.ofNat m : F32) ((n : ℚ) / m) 3 := by
  have h0 : (1 : ℚ) ≤ n := by exact_mod_cast hn
  have h1 : (n : ℚ) ≤ 1073741823 := by exact_mod_cast hn2
  have h2 : (1 : ℚ) ≤ m := by exact_mod_cast hm
  have h3 : (m : ℚ) ≤ 1073741823 := by exact_mod_cast hm2
  refine Near.div (near_nat n hn hn2) (near_nat m hm hm2) (by omega) ?_ ?_
  · rw [le_div_iff₀ (by linarith)]
    nlinarith [pow2_m99]
  · rw [div_le_iff₀ (by linarith)]
    nlinarith [pow2_p99]

instance [Libm b32] : Coords F32 where
  scaled m n x hx hn hm hm2 := by
    have h1 : (n : ℚ) ≤ 1073741823 := by exact_mod_cast hn
    have h2 : (1 : ℚ) ≤ m := by exact_mod_cast hm
    have h3 : (m : ℚ) ≤ 1073741823 := by exact_mod_cast hm2
    have h4 : (1 : ℚ) ≤ n := by have : 1 ≤ n := by omega
                                exact_mod_cast this
    have h5 : (x : ℚ) + 1 ≤ n := by exact_mod_cast hx
    have h6 : (0 : ℚ) ≤ x := by exact_mod_cast Nat.zero_le x
    have half : Near (lit 0.5 : F32) 0.5 1 :=
      Near.lit (by linarith [pow2_m99]) (by linarith [pow2_p99])
    -- x + 0.5
    have hx5 : Near (Scalar.ofNat x +. lit 0.5 : F32) ((x : ℚ) + 0.5) 2 := by
      by_cases h0 : x = 0
      · subst h0
        have e : (Scalar.ofNat 0 +. lit 0.5 : F32) = lit 0.5 := by
          show FP.add (FP.ofRat b32 false ((0 : Nat) : ℚ)) (FP.ofRat b32 false 0.5) = FP.ofRat b32 false 0.5
          decide +kernel
        rw [e]
        have := half.mono (show 1 ≤ 2 by omega)
        simpa using this
      · exact Near.add (near_nat x (by omega) (by omega)) half (by omega)
          (by linarith [pow2_m99]) (by linarith [pow2_p99])
    have hs := near_scale m n (by omega) hn hm hm2
    have hq : ((x : ℚ) + 0.5) / ((n : ℚ) / m) = ((x : ℚ) + 0.5) * m / n := by
      field_simp
    have hpos : (0 : ℚ) < ((x : ℚ) + 0.5) * m / n := by positivity
    have hle : ((x : ℚ) + 0.5) * m / n ≤ m := by
      rw [div_le_iff₀ (by linarith)]; nlinarith
    have hge : (1 : ℚ) / 4294967296 ≤ ((x : ℚ) + 0.5) * m / n := by
      rw [le_div_iff₀ (by linarith)]; nlinarith
    have hg := Near.div hx5 hs (by omega) (by rw [hq]; linarith [pow2_m99])
      (by rw [hq]; linarith [pow2_p99])
    rw [hq] at hg
    -- subtract 0.5
    have hA6 : relA ^ (2 + 3 + 1) ≤ 1 + 1 / 1048576 := by norm_num [relA]
    have hup : (FP.div (Scalar.ofNat x +. lit 0.5 : F32) (Scalar.ofNat n /. Scalar.ofNat m : F32)).val ≤
        1073742848 := by
      refine le_trans hg.hi ?_
      calc ((x : ℚ) + 0.5) * m / n * relA ^ (2 + 3 + 1) ≤ m * (1 + 1 / 1048576) :=
            mul_le_mul hle hA6 (pow_pos relA_pos _).le (by linarith)
        _ ≤ 1073742848 := by nlinarith
    have hlo := hg.val_pos
    have hfin := hg.fin
    have half2 : (lit 0.5 : F32).fin = true ∧ (lit 0.5 : F32).val = 0.5 := by
      show (FP.ofRat b32 false 0.5).fin = true ∧ (FP.ofRat b32 false 0.5).val = 0.5
      decide +kernel
    unfold scaledPos
    generalize hG : (Scalar.ofNat x +. lit 0.5 : F32) /. (Scalar.ofNat n /. Scalar.ofNat m) = G
    have hGv : G = FP.div (Scalar.ofNat x +. lit 0.5 : F32) (Scalar.ofNat n /. Scalar.ofNat m : F32) :=
      hG.symm
    rw [← hGv] at hup hlo hfin
    have hsub : (G -. lit 0.5) = FP.sub G (lit 0.5) := rfl
    rw [hsub, FP.sub_fin hfin half2.1, half2.2]
    have r1 := rep_b32 (-1) (-1) 0 (by norm_num) (by norm_num) (by norm_num)
    have r2 := rep_b32 1073743872 524289 11 (by norm_num) (by norm_num) (by norm_num)
    have l1 := rep_le_rn r1.1 (show ((-1 : Int) : ℚ) ≤ G.val - 0.5 by push_cast; linarith)
    have l2 := rn_le_rep r2.1 (show G.val - 0.5 ≤ ((1073743872 : Int) : ℚ) by push_cast; linarith)
    have hv := FP.ofRat_val (f := b32) (s := G.isNeg && (lit 0.5 : F32).neg.isNeg) (q := G.val - 0.5)
      (by
        have a1 := r1.2
        have a2 := r2.2
        rw [abs_lt] at *
        exact ⟨lt_of_lt_of_le a1.1 l1, lt_of_le_of_lt l2 a2.2⟩)
    apply FP.asI32_floor hv.1 r1 r2
    · rw [hv.2]; exact l1
    · rw [hv.2]; linarith
    · norm_num
    · norm_num
  rounded v h0 h1 := by
    have r1 := rep_b32 (-1) (-1) 0 (by norm_num) (by norm_num) (by norm_num)
    have r2 := rep_b32 1073741824 1 30 (by norm_num) (by norm_num) (by norm_num)
    change 0 ≤ FP.toInt _ _ (FP.integral FP.roundAway v) at h0
    change FP.toInt _ _ (FP.integral FP.roundAway v) < _ at h1
    rcases FP.kinds v with rfl | ⟨s, rfl⟩ | hf
    · show -1 ≤ (0 : Int) ∧ (0 : Int) ≤ _; omega
    · exfalso
      cases s
      · change (2147483647 : Int) < _ at h1; omega
      · change 0 ≤ (-2147483648 : Int) at h0; omega
    · cases v with
      | nan => simp [FP.fin] at hf
      | inf s => simp [FP.fin] at hf
      | zero s =>
        have : base (FP.zero s : F32) = 0 := by
          show FP.toInt (-2147483648) 2147483647 (FP.zero s : F32) = 0
          rw [FP.toInt_fin _ _ rfl]
          simp [FP.trunc, FP.val]
        rw [this]; omega
      | num q hq =>
        change 0 ≤ FP.toInt _ _ (FP.ofRat b32 _ _) at h0
        change FP.toInt _ _ (FP.ofRat b32 _ _) < _ at h1
        have l0 : -1 < FP.roundAway q := by
          by_contra hc
          have := FP.toInt_ofRat_le (lo := -2147483648) (hi := 2147483647) (s := decide (q < 0)) r1
            (show (FP.roundAway q : ℚ) ≤ ((-1 : Int) : ℚ) by exact_mod_cast not_lt.1 hc) (by norm_num)
          exact absurd (le_trans h0 this) (by norm_num)
        have l1 : FP.roundAway q < 1073741824 := by
          by_contra hc
          have := FP.le_toInt_ofRat (lo := -2147483648) (hi := 2147483647) (s := decide (q < 0)) r2
            (show ((1073741824 : Int) : ℚ) ≤ (FP.roundAway q : ℚ) by exact_mod_cast not_lt.1 hc)
            (by norm_num)
          exact absurd (lt_of_le_of_lt this h1) (by norm_num)
        have b0 : (-1 : ℚ) ≤ q ∧ q < 1073741824 := by
          unfold FP.roundAway at l0 l1
          split at l0
          · have := Int.lt_ceil.1 l0
            push_cast at this
            constructor <;> linarith
          · have := Int.floor_lt.1 (by rwa [if_neg (by assumption)] at l1 : ⌊q + 1 / 2⌋ < 1073741824)
            push_cast at this
            constructor <;> linarith
        refine FP.asI32_floor (x := FP.num q hq) rfl r1 r2 ?_ ?_ (by norm_num) (by norm_num)
        · show ((-1 : Int) : ℚ) ≤ q; push_cast; linarith [b0.1]
        · show q < ((1073741824 : Int) : ℚ) + 1; push_cast; linarith [b0.2]
  auto m n m' n' hn hnm hm hn' hnm' hm' := by
    have h1 : (1 : ℚ) ≤ n := by exact_mod_cast hn
    have h2 : (1 : ℚ) ≤ n' := by exact_mod_cast hn'
    have h3 : (m : ℚ) ≤ 134217728 := by exact_mod_cast hm
    have h4 : (m' : ℚ) ≤ 134217728 := by exact_mod_cast hm'
    have h5 : (n : ℚ) ≤ m := by exact_mod_cast hnm.le
    have h6 : (n' : ℚ) ≤ m' := by exact_mod_cast hnm'.le
    have s1 := near_scale m n hn (by omega) (by omega) (by omega)
    have s2 := near_scale m' n' hn' (by omega) (by omega) (by omega)
    have key : ∀ t : F32, ∀ a b : ℚ, Near t (a / b) 3 → 1 ≤ a → a ≤ b → b ≤ 134217728 →
        3 ≤ Scalar.asUsize (Scalar.ceil (Scalar.max (lit 1 /. t *. lit 2) (lit 3))) ∧
        Scalar.asUsize (Scalar.ceil (Scalar.max (lit 1 /. t *. lit 2) (lit 3))) ≤ 268436480 := by
      intro t a b ht ha hab hb
      have r3 := rep_b32 3 3 0 (by norm_num) (by norm_num) (by norm_num)
      have r4 := rep_b32 268436480 262145 10 (by norm_num) (by norm_num) (by norm_num)
      have one : Near (lit 1 : F32) 1 1 :=
        Near.lit (by linarith [pow2_m99]) (by linarith [pow2_p99])
      have two : Near (lit 2 : F32) 2 1 :=
        Near.lit (by linarith [pow2_m99]) (by linarith [pow2_p99])
      have hba : 1 / (a / b) = b / a := by rw [one_div_div]
      have g1 : 1 ≤ b / a := by rw [le_div_iff₀ (by linarith)]; linarith
      have g2 : b / a ≤ 134217728 := by rw [div_le_iff₀ (by linarith)]; nlinarith
      have hd := Near.div one ht (by omega) (by rw [hba]; linarith [pow2_m99])
        (by rw [hba]; linarith [pow2_p99])
      rw [hba] at hd
      have hw := Near.mul hd two (by omega) (by linarith [pow2_m99]) (by linarith [pow2_p99])
      have hA7 : relA ^ (1 + 3 + 1 + 1 + 1) ≤ 1 + 1 / 1048576 := by norm_num [relA]
      have hup : (FP.mul (FP.div (lit 1 : F32) t) (lit 2)).val ≤ 268435712 := by
        refine le_trans hw.hi ?_
        calc b / a * 2 * relA ^ (1 + 3 + 1 + 1 + 1) ≤ 134217728 * 2 * (1 + 1 / 1048576) :=
              mul_le_mul (by linarith) hA7 (pow_pos relA_pos _).le (by norm_num)
          _ ≤ 268435712 := by norm_num
      have three : (lit 3 : F32).fin = true ∧ (lit 3 : F32).val = 3 := by
        show (FP.ofRat b32 false 3).fin = true ∧ (FP.ofRat b32 false 3).val = 3
        decide +kernel
      have hfin := hw.fin
      change 3 ≤ Scalar.asUsize (Scalar.ceil (Scalar.max (FP.mul (FP.div (lit 1 : F32) t) (lit 2)) (lit 3))) ∧
        Scalar.asUsize (Scalar.ceil (Scalar.max (FP.mul (FP.div (lit 1 : F32) t) (lit 2)) (lit 3))) ≤ _
      generalize FP.mul (FP.div (lit 1 : F32) t) (lit 2) = W at hup hfin ⊢
      have hmax : (Scalar.max W (lit 3)).fin = true ∧ 3 ≤ (Scalar.max W (lit 3)).val ∧
          (Scalar.max W (lit 3)).val ≤ 268435712 := by
        unfold Scalar.max
        rw [FP.isNan_fin hfin, FP.isNan_fin three.1]
        simp only [Bool.false_eq_true, if_false]
        have hlt : Scalar.lt W (lit 3) = decide (W.val < 3) := by
          have := FP.lt_fin hfin three.1
          rw [three.2] at this; exact this
        rw [hlt]
        by_cases hc : W.val < 3
        · simp only [hc, decide_true, if_true]
          refine ⟨three.1, ?_, ?_⟩ <;> rw [three.2]; norm_num
        · simp only [hc, decide_false, Bool.false_eq_true, if_false]
          exact ⟨hfin, not_lt.1 hc, hup⟩
      generalize Scalar.max W (lit 3) = V at hmax ⊢
      obtain ⟨v0, v1, v2⟩ := hmax
      cases V with
      | nan => simp [FP.fin] at v0
      | inf s => simp [FP.fin] at v0
      | zero s => exfalso; change (3 : ℚ) ≤ 0 at v1; norm_num at v1
      | num q hq =>
        change (3 : ℚ) ≤ q at v1
        change q ≤ 268435712 at v2
        have c1 : ((3 : Int) : ℚ) ≤ ((⌈q⌉ : Int) : ℚ) := by
          push_cast; exact le_trans v1 (Int.le_ceil q)
        have c2 : ((⌈q⌉ : Int) : ℚ) ≤ ((268436480 : Int) : ℚ) := by
          have : ⌈q⌉ ≤ 268436480 := Int.ceil_le.2 (by push_cast; linarith)
          exact_mod_cast this
        have k1 := FP.le_toInt_ofRat (lo := 0) (hi := 18446744073709551615) (s := decide (q < 0)) r3 c1
          (by norm_num)
        have k2 := FP.toInt_ofRat_le (lo := 0) (hi := 18446744073709551615) (s := decide (q < 0)) r4 c2
          (by norm_num)
        show 3 ≤ (FP.toInt 0 18446744073709551615 (FP.ofRat b32 (decide (q < 0)) (⌈q⌉ : ℚ))).toNat ∧
          (FP.toInt 0 18446744073709551615 (FP.ofRat b32 (decide (q < 0)) (⌈q⌉ : ℚ))).toNat ≤ 268436480
        omega
    unfold autoSize
    have hmin : Scalar.min (Scalar.ofNat n /. Scalar.ofNat m : F32) (Scalar.ofNat n' /. Scalar.ofNat m') =
        (Scalar.ofNat n /. Scalar.ofNat m : F32) ∨
        Scalar.min (Scalar.ofNat n /. Scalar.ofNat m : F32) (Scalar.ofNat n' /. Scalar.ofNat m') =
        (Scalar.ofNat n' /. Scalar.ofNat m' : F32) := by
      unfold Scalar.min
      split_ifs <;> simp
    rcases hmin with h | h <;> rw [h]
    · exact key _ n m s1 h1 h5 h3
    · exact key _ n' m' s2 h2 h6 h4

/-! ## Exact arithmetic -/

section
variable [Junk]

theorem Exact.toInt_int (lo hi z : Int) : Scalar.toInt lo hi ((z : ℝ)) = max lo (min hi z) := by
  show max lo (min hi (if (z : ℝ) < 0 then ⌈(z : ℝ)⌉ else ⌊(z : ℝ)⌋)) = _
  simp

theorem Exact.base_eq (v : ℝ) : base v = max (-2147483648) (min 2147483647 ⌊v⌋) :=
  Exact.toInt_int _ _ _

theorem Exact.base_of {v : ℝ} (h0 : -2147483648 ≤ ⌊v⌋) (h1 : ⌊v⌋ ≤ 2147483647) : base v = ⌊v⌋ := by
  rw [Exact.base_eq]; omega

theorem Exact.round_eq (v : ℝ) :
    Scalar.asI32 (Scalar.round v) =
      max (-2147483648) (min 2147483647 (if v < 0 then ⌈v - 1 / 2⌉ else ⌊v + 1 / 2⌋)) := by
  unfold Scalar.asI32
  rw [← Exact.toInt_int]
  congr 1
  show (if _ then _ else _) = _
  split <;> simp

theorem Exact.scaledPos_eq (m n x : Nat) (hm : 0 < m) (hn : 0 < n) :
    (scaledPos m n x : ℝ) = (x + 1 / 2) * m / n - 1 / 2 := by
  have h1 : (m : ℝ) ≠ 0 := by exact_mod_cast hm.ne'
  have h2 : (n : ℝ) ≠ 0 := by exact_mod_cast hn.ne'
  unfold scaledPos Scalar.ofNat
  have e : ((lit (n : ℚ) : ℝ) /. lit (m : ℚ)) = n / m := by
    rw [Exact.div (by rw [Exact.lit]; simpa using h1), Exact.lit, Exact.lit]; simp
  rw [e, Exact.sub, Exact.div (by positivity), Exact.add, Exact.lit, Exact.lit]
  push_cast
  field_simp
  norm_num
  ring

theorem Exact.scale_eq (m n : Nat) (hm : 0 < m) :
    (Scalar.ofNat n /. Scalar.ofNat m : ℝ) = n / m := by
  have h1 : (m : ℝ) ≠ 0 := by exact_mod_cast hm.ne'
  unfold Scalar.ofNat
  rw [Exact.div (by rw [Exact.lit]; simpa using h1), Exact.lit, Exact.lit]; simp

theorem Exact.autoSize_eq {m n m' n' : Nat} (hm : 0 < m) (hn : 0 < n) (hm' : 0 < m') (hn' : 0 < n')
    (h1 : m ≤ 4294967295) (h2 : m' ≤ 4294967295) :
    (autoSize (Scalar.ofNat n /. Scalar.ofNat m : ℝ) (Scalar.ofNat n' /. Scalar.ofNat m') : Int) =
      max 3 ⌈2 * max ((m : ℝ) / n) ((m' : ℝ) / n')⌉ := by
  have g1 : (1 : ℝ) ≤ m := by exact_mod_cast hm
  have g2 : (1 : ℝ) ≤ n := by exact_mod_cast hn
  have g3 : (1 : ℝ) ≤ m' := by exact_mod_cast hm'
  have g4 : (1 : ℝ) ≤ n' := by exact_mod_cast hn'
  have g5 : (m : ℝ) ≤ 4294967295 := by exact_mod_cast h1
  have g6 : (m' : ℝ) ≤ 4294967295 := by exact_mod_cast h2
  unfold autoSize
  rw [Exact.scale_eq m n hm, Exact.scale_eq m' n' hm', Exact.min, Exact.max, Exact.mul,
    Exact.div (lt_min (by positivity) (by positivity)).ne', Exact.lit, Exact.lit, Exact.lit, Exact.ceil]
  have e : ((1 : ℚ) : ℝ) / min ((n : ℝ) / m) ((n' : ℝ) / m') = max ((m : ℝ) / n) ((m' : ℝ) / n') := by
    push_cast
    rcases le_total ((n : ℝ) / m) ((n' : ℝ) / m') with h | h
    · rw [min_eq_left h, max_eq_left, one_div_div]
      have := one_div_le_one_div_of_le (by positivity) h
      rwa [one_div_div, one_div_div] at this
    · rw [min_eq_right h, max_eq_right, one_div_div]
      have := one_div_le_one_div_of_le (by positivity) h
      rwa [one_div_div, one_div_div] at this
  rw [e]
  unfold Scalar.asUsize
  rw [Exact.toInt_int]
  have b1 : max ((m : ℝ) / n) ((m' : ℝ) / n') ≤ 4294967295 := by
    apply max_le
    · rw [div_le_iff₀ (by linarith)]; nlinarith
    · rw [div_le_iff₀ (by linarith)]; nlinarith
  have c : ⌈max (max ((m : ℝ) / n) ((m' : ℝ) / n') * ((2 : ℚ) : ℝ)) ((3 : ℚ) : ℝ)⌉ =
      max 3 ⌈2 * max ((m : ℝ) / n) ((m' : ℝ) / n')⌉ := by
    rw [mul_comm]
    have : Monotone (Int.ceil : ℝ → Int) := Int.ceil_mono
    rw [this.map_max, max_comm]
    push_cast
    norm_num
  rw [c]
  have : ⌈2 * max ((m : ℝ) / n) ((m' : ℝ) / n')⌉ ≤ 8589934590 := Int.ceil_le.2 (by push_cast; linarith)
  omega

instance : Coords ℝ where
  scaled m n x hx hn hm hm2 := by
    have hn0 : 0 < n := by omega
    have g1 : (1 : ℝ) ≤ m := by exact_mod_cast hm
    have g2 : (1 : ℝ) ≤ n := by exact_mod_cast hn0
    have g3 : (m : ℝ) ≤ 1073741823 := by exact_mod_cast hm2
    have g4 : (x : ℝ) + 1 ≤ n := by exact_mod_cast hx
    have g5 : (0 : ℝ) ≤ x := by exact_mod_cast Nat.zero_le x
    have l : (0 : ℝ) ≤ (x + 1 / 2) * m / n := by positivity
    have u : ((x : ℝ) + 1 / 2) * m / n ≤ m := by rw [div_le_iff₀ (by linarith)]; nlinarith
    rw [Exact.base_eq, Exact.scaledPos_eq m n x hm hn0]
    have l1 : -1 ≤ ⌊((x : ℝ) + 1 / 2) * m / n - 1 / 2⌋ := Int.le_floor.2 (by push_cast; linarith)
    have l2 : ⌊((x : ℝ) + 1 / 2) * m / n - 1 / 2⌋ < 1073743872 := Int.floor_lt.2 (by push_cast; linarith)
    omega
  rounded v h0 h1 := by
    rw [Exact.round_eq] at h0 h1
    rw [Exact.base_eq]
    have : -1 ≤ ⌊v⌋ ∧ ⌊v⌋ < 1073741824 := by
      split at h0
      · rename_i hv
        rw [if_pos hv] at h1
        have : -1 < ⌈v - 1 / 2⌉ := by omega
        have := Int.lt_ceil.1 this
        push_cast at this
        exact ⟨Int.le_floor.2 (by push_cast; linarith), Int.floor_lt.2 (by push_cast; linarith)⟩
      · rename_i hv
        rw [if_neg hv] at h1
        have : ⌊v + 1 / 2⌋ < 1073741824 := by omega
        have := Int.floor_lt.1 this
        push_cast at this
        exact ⟨Int.le_floor.2 (by push_cast; linarith), Int.floor_lt.2 (by push_cast; linarith)⟩
    omega
  auto m n m' n' hn hnm hm hn' hnm' hm' := by
    have := Exact.autoSize_eq (m := m) (n := n) (m' := m') (n' := n') (by omega) hn (by omega) hn'
      (by omega) (by omega)
    have g2 : (1 : ℝ) ≤ n := by exact_mod_cast hn
    have g4 : (1 : ℝ) ≤ n' := by exact_mod_cast hn'
    have g5 : (m : ℝ) ≤ 134217728 := by exact_mod_cast hm
    have g6 : (m' : ℝ) ≤ 134217728 := by exact_mod_cast hm'
    have b1 : max ((m : ℝ) / n) ((m' : ℝ) / n') ≤ 134217728 := by
      apply max_le
      · rw [div_le_iff₀ (by linarith)]; nlinarith
      · rw [div_le_iff₀ (by linarith)]; nlinarith
    have : ⌈2 * max ((m : ℝ) / n) ((m' : ℝ) / n')⌉ ≤ 268436480 :=
      Int.ceil_le.2 (by push_cast; linarith)
    omega

end
end D10
