import Verif.Props.ResizeFloat
import Verif.Props.Ieee
import Verif.Props.AccuracyPow
import Verif.SpecRotate
import Mathlib.Analysis.SpecialFunctions.Trigonometric.Bounds

/-!
# Rotating in binary32 stays close to rotating in exact arithmetic (C105)
-/

namespace D10
open Spec
open Scalar (lit)

/-! ## Positions -/

section Positions
variable [Libm b32]

omit [Libm b32] in
theorem rep_half (z : Int) (hz : |z| < 16777216) : IsRep b32 ((z : ℚ) / 2) := by
  refine ⟨z, -1, by simpa [b32] using hz, by decide, ?_⟩
  have : pow2 (-1) = 1 / 2 := by decide +kernel
  rw [this]; ring

omit [Libm b32] in
/-- Results that are half integers are exact. -/
theorem half_int (z : Int) (hz : |z| < 16777216) (s : Bool) :
    (FP.ofRat b32 s ((z : ℚ) / 2)).fin = true ∧ (FP.ofRat b32 s ((z : ℚ) / 2)).val = (z : ℚ) / 2 := by
  refine FP.ofRat_rep (rep_half z hz) ?_
  have h1 : |(z : ℚ) / 2| < 16777216 := by
    rw [abs_div]
    have : |(z : ℚ)| < 16777216 := by exact_mod_cast hz
    have h2 : |(2 : ℚ)| = 2 := by norm_num
    rw [h2]
    have := abs_nonneg (z : ℚ)
    linarith
  have h2 : (16777216 : ℚ) ≤ pow2 b32.emax := by decide +kernel
  linarith

/-- The middle of a side. -/
theorem middle_exact {n : Nat} (hn : n ≤ 2097152) :
    (Scalar.ofNat (n + 1) /. lit 2 : F32).fin = true ∧
      (Scalar.ofNat (n + 1) /. lit 2 : F32).val = ((n : ℚ) + 1) / 2 := by
  obtain ⟨n1, n2⟩ := nat_exact (n + 1) (by omega)
  have l2 : (lit 2 : F32).fin = true ∧ (lit 2 : F32).val = 2 := by
    show (FP.ofRat b32 false 2).fin = true ∧ (FP.ofRat b32 false 2).val = 2
    decide +kernel
  have e : (Scalar.ofNat (n + 1) /. lit 2 : F32) = FP.div (Scalar.ofNat (n + 1)) (lit 2) := rfl
  rw [e, FP.div_fin n1 l2.1 (by rw [l2.2]; norm_num), n2, l2.2]
  have := half_int (n + 1 : Int) (by rw [abs_of_nonneg (by omega)]; omega)
  push_cast at this ⊢
  exact this _

/-- The distance of a pixel from the middle. -/
theorem offset_exact {n x : Nat} (hn : n ≤ 2097152) (hx : x < n) :
    (Scalar.ofNat x +. lit 1 -. (Scalar.ofNat (n + 1) /. lit 2) : F32).fin = true ∧
      (Scalar.ofNat x +. lit 1 -. (Scalar.ofNat (n + 1) /. lit 2) : F32).val =
        (x : ℚ) - ((n : ℚ) - 1) / 2 := by
  obtain ⟨m1, m2⟩ := middle_exact hn
  obtain ⟨x1, x2⟩ := nat_exact x (by omega)
  have l1 : (lit 1 : F32).fin = true ∧ (lit 1 : F32).val = 1 := FP.lit1
  have s : (Scalar.ofNat x +. lit 1 : F32).fin = true ∧ (Scalar.ofNat x +. lit 1 : F32).val = (x : ℚ) + 1 := by
    have e : (Scalar.ofNat x +. lit 1 : F32) = FP.add (Scalar.ofNat x) (lit 1) := rfl
    rw [e, FP.add_fin x1 l1.1, x2, l1.2]
    have r := FP.int_finite (f := b32) ((x : Int) + 1) (by
      rw [abs_of_nonneg (by omega)]; have : (b32.prec) = 24 := rfl; rw [this]; norm_num; omega)
    have := FP.ofRat_rep (s := ((Scalar.ofNat x : F32).isNeg && (lit 1 : F32).isNeg)) r.1 r.2
    push_cast at this
    exact this
  have e : (Scalar.ofNat x +. lit 1 -. (Scalar.ofNat (n + 1) /. lit 2) : F32) =
    FP.sub (Scalar.ofNat x +. lit 1) (Scalar.ofNat (n + 1) /. lit 2) := rfl
  rw [e, FP.sub_fin s.1 m1, s.2, m2]
  have k := half_int (2 * (x : Int) - (n - 1)) (by rw [abs_lt]; omega)
  have eq : (((2 * (x : Int) - (n - 1) : Int) : ℚ) / 2) = (x : ℚ) + 1 - ((n : ℚ) + 1) / 2 := by
    push_cast; ring
  rw [eq] at k
  refine ⟨(k _).1, ?_⟩
  rw [(k _).2]; ring

/-- The angle in radians. -/
theorem radians_near {angle : F32} (ha : angle.fin = true) (hl : |angle.val| ≤ 720) :
    NearF (angle /. lit (-180) *. lit 3.14159265358979323846264338327950288)
      ((angle.val : ℝ) / (-180) * 3.14159265358979323846264338327950288) (45 / 33554432) (63 / 5) := by
  have a : NearF angle angle.val 0 720 := NearF.of_fin ha (by exact_mod_cast hl)
  have d := NearF.lit_rep (B := 180) (-180) (by decide +kernel) (by norm_num)
  have p := NearF.lit (B := 3.15) 2 3.14159265358979323846264338327950288 (by norm_num) (by norm_num) (by norm_num)
  have q := (NearF.div (m := 180) 2 (by norm_num) a d (by norm_num) (by norm_num) (by norm_num)).mono
    (d := 4 / 33554432) (B := 4) (by norm_num) (by norm_num)
  have r := NearF.mul 4 (by norm_num) q p (by norm_num)
  refine (r.mono (by norm_num) (by norm_num)).congr ?_
  push_cast
  norm_num

/-- `sin` and `cos` of the angle. -/
theorem sincos_near {δ : ℝ} (hs : SinCosWithin δ) {angle : F32} (ha : angle.fin = true)
    (hl : |angle.val| ≤ 720) :
    let r : F32 := angle /. lit (-180) *. lit 3.14159265358979323846264338327950288
    let t : ℝ := (angle.val : ℝ) / (-180) * 3.14159265358979323846264338327950288
    NearF (Scalar.sin r) (Real.sin t) (δ + 45 / 33554432) 1 ∧
      NearF (Scalar.cos r) (Real.cos t) (δ + 45 / 33554432) 1 := by
  intro r t
  have n : NearF r t (45 / 33554432) (63 / 5) := radians_near ha hl
  have hr : |r.val| ≤ 16 := by
    have h1 := n.close.err
    have h2 := n.le
    have : |(r.val : ℝ)| ≤ 16 := by
      have := abs_add_le t (r.val - t)
      rw [add_sub_cancel] at this
      linarith
    exact_mod_cast this
  obtain ⟨s1, s2⟩ := hs r n.close.fin hr
  have e1 := Real.abs_sin_sub_sin_le r.val t
  have e2 := Real.abs_cos_sub_cos_le r.val t
  have h1 := n.close.err
  refine ⟨⟨⟨s1.fin, ?_⟩, Real.abs_sin_le_one t⟩, ⟨⟨s2.fin, ?_⟩, Real.abs_cos_le_one t⟩⟩
  · have := abs_sub_le ((Scalar.sin r : F32).val : ℝ) (Real.sin r.val) (Real.sin t)
    have := s1.err
    linarith
  · have := abs_sub_le ((Scalar.cos r : F32).val : ℝ) (Real.cos r.val) (Real.cos t)
    have := s2.err
    linarith

/-- One coordinate of a rotated-back position, for the sum or the difference of the two products. -/
theorem turn_near {a b c s m : F32} {p q C S : ℝ} {w h k : ℕ} {η : ℝ} (hk : k ≤ 22)
    (hN : (w : ℝ) + h ≤ 2 ^ k) (hN2 : (2 : ℝ) ^ k ≤ 2 * (w + h)) (hh : 1 ≤ h) (hw : 1 ≤ w)
    (hη : η ≤ 1 / 4)
    (ha : NearF a p 0 (w / 2)) (hb : NearF b q 0 (h / 2)) (hc : NearF c C η 1) (hs : NearF s S η 1)
    {n : ℕ} (hn : n = w ∨ n = h)
    (hm : m.fin = true ∧ m.val = ((n : ℚ) + 1) / 2) :
    NearF (a *. c -. b *. s +. m -. lit 1) (p * C - q * S + (n - 1) / 2)
      (((w : ℝ) + h) * (η / 2 + 14 / 33554432)) (w + h + 1) ∧
    NearF (a *. c +. b *. s +. m -. lit 1) (p * C + q * S + (n - 1) / 2)
      (((w : ℝ) + h) * (η / 2 + 14 / 33554432)) (w + h + 1) := by
  have η0 := hc.e_nonneg
  have hw' : (1 : ℝ) ≤ w := by exact_mod_cast hw
  have hh' : (1 : ℝ) ≤ h := by exact_mod_cast hh
  have m1 : NearF m (((n : ℝ) + 1) / 2) 0 ((w + h) / 2) := by
    refine ⟨⟨hm.1, by rw [hm.2]; push_cast; simp⟩, ?_⟩
    rw [abs_of_nonneg (by positivity)]
    rcases hn with rfl | rfl <;> linarith
  have wη : (w : ℝ) * η ≤ w * (1 / 4) := mul_le_mul_of_nonneg_left hη (by linarith)
  have hη' : (h : ℝ) * η ≤ h * (1 / 4) := mul_le_mul_of_nonneg_left hη (by linarith)
  have t1 := NearF.mul k (by omega) ha hc (by nlinarith)
  have t2 := NearF.mul k (by omega) hb hs (by nlinarith)
  have t1' := t1.mono (d := w / 2 * η + 2 ^ k / 33554432) (B := w / 2) (by linarith) (by linarith)
  have t2' := t2.mono (d := h / 2 * η + 2 ^ k / 33554432) (B := h / 2) (by linarith) (by linarith)
  have pk : (2 : ℝ) ^ (k + 1) = 2 * 2 ^ k := by rw [pow_succ]; ring
  have fin : ∀ {x : F32} {v : ℝ}, NearF x v ((w / 2 * η + 2 ^ k / 33554432) + (h / 2 * η + 2 ^ k / 33554432) +
      2 ^ k / 33554432) (w / 2 + h / 2) →
      NearF (x +. m -. lit 1) (v + (n - 1) / 2) (((w : ℝ) + h) * (η / 2 + 14 / 33554432)) (w + h + 1) := by
    intro x v t
    have t4 := NearF.add (k + 1) (by omega) t m1 (by rw [pk]; linarith)
    have t5 := NearF.sub (k + 1) (by omega) t4 NearF.one (by rw [pk]; linarith)
    refine (t5.mono ?_ ?_).congr (by ring)
    · rw [pk]; linarith
    · linarith
  exact ⟨fin (NearF.sub k (by omega) t1' t2' (by linarith)),
    fin (NearF.add k (by omega) t1' t2' (by linarith))⟩

variable [Junk]

/-- The rotated-back position. -/
theorem rotated_near {δ : ℝ} (hs : SinCosWithin δ) (hδ : δ ≤ 1 / 8) {angle : F32} (ha : angle.fin = true)
    (hl : |angle.val| ≤ 720) {w h x y : Nat} (hsz : w + h ≤ 2097152) (hx : x < w) (hy : y < h) :
    let p := rotatedFrom w h angle x y
    let q := rotatedFrom w h (angle.val : ℝ) x y
    (Close p.1 q.1 (rotateError δ w h) ∧ Close p.2 q.2 (rotateError δ w h)) ∧
      |q.1| ≤ w + h + 1 ∧ |q.2| ≤ w + h + 1 := by
  intro p q
  obtain ⟨S, C⟩ := sincos_near hs ha hl
  obtain ⟨k, hk, k1, k2⟩ := pow_between (m := w + h) (by omega) hsz
  have k1' : (w : ℝ) + h ≤ 2 ^ k := by
    have := (Rat.cast_le (K := ℝ)).2 k1; push_cast at this; exact this
  have k2' : (2 : ℝ) ^ k ≤ 2 * (w + h) := by
    have := (Rat.cast_le (K := ℝ)).2 k2; push_cast at this; exact this
  have off : ∀ {n z : Nat}, n ≤ 2097152 → z < n →
      NearF (Scalar.ofNat z +. lit 1 -. (Scalar.ofNat (n + 1) /. lit 2) : F32)
        ((z : ℝ) - ((n : ℝ) - 1) / 2) 0 (n / 2) := by
    intro n z hn hz
    obtain ⟨h1, h2⟩ := offset_exact hn hz
    refine ⟨⟨h1, by rw [h2]; push_cast; simp⟩, ?_⟩
    have hz' : (z : ℝ) + 1 ≤ n := by exact_mod_cast hz
    have hz0 : (0 : ℝ) ≤ z := Nat.cast_nonneg z
    rw [abs_le]; constructor <;> linarith
  have A := off (by omega : w ≤ 2097152) hx
  have B := off (by omega : h ≤ 2097152) hy
  have hη : δ + 45 / 33554432 ≤ 1 / 4 := by linarith
  have X := (turn_near hk k1' k2' (by omega) (by omega) hη A B C S (Or.inl rfl)
    (middle_exact (by omega : w ≤ 2097152))).1
  have Y := (turn_near hk k1' k2' (by omega) (by omega) hη A B S C (Or.inr rfl)
    (middle_exact (by omega : h ≤ 2097152))).2
  obtain ⟨e1, e2⟩ := C21_rotated_position w h (angle.val : ℝ) x y
  have et : (angle.val : ℝ) / (-180) * 3.14159265358979323846264338327950288 =
      -(angle.val : ℝ) / 180 * 3.14159265358979323846264338327950288 := by ring
  rw [et] at X Y
  have X' := X.congr (r := q.1) (sub_eq_iff_eq_add.1 e1).symm
  have Y' := Y.congr (r := q.2) (sub_eq_iff_eq_add.1 e2).symm
  have le : ((w : ℝ) + h) * ((δ + 45 / 33554432) / 2 + 14 / 33554432) ≤ rotateError δ w h := by
    unfold rotateError
    refine mul_le_mul_of_nonneg_left ?_ (by positivity)
    norm_num; linarith
  exact ⟨⟨X'.close.mono le, Y'.close.mono le⟩, X'.le, Y'.le⟩

omit [Junk] in
/-- Which pixel a position is rounded to. -/
theorem rounds_to {v : F32} (hv : v.fin = true) (hl : |v.val| ≤ 4194306) :
    |((Scalar.asI32 (Scalar.round v) : ℤ) : ℝ) - v.val| ≤ 1 / 2 := by
  obtain ⟨r1, n, r2, r3, -⟩ := ((C92_integral v).1 hv).2.2
  have e : Scalar.asI32 (Scalar.round v) = n := by
    show FP.toInt (-2147483648) 2147483647 (Scalar.round v) = n
    rw [FP.toInt_fin _ _ r1, r2]
    have t : FP.trunc (n : ℚ) = n := by unfold FP.trunc; split <;> simp
    rw [t]
    have b : |(n : ℚ)| ≤ 4194307 := by
      have := abs_add_le v.val (n - v.val)
      rw [add_sub_cancel] at this
      linarith
    have b' : |n| ≤ 4194307 := by exact_mod_cast b
    rw [abs_le] at b'
    omega
  rw [e]
  have := (Rat.cast_le (K := ℝ)).2 r3
  push_cast at this
  exact this

omit [Libm b32] in
theorem rounds_to_exact {v : ℝ} (hl : |v| ≤ 4194306) :
    |((Scalar.asI32 (Scalar.round v) : ℤ) : ℝ) - v| ≤ 1 / 2 := by
  rw [Exact.round_eq]
  rw [abs_le] at hl
  have : ∀ n : ℤ, |(n : ℝ) - v| ≤ 1 / 2 → |((max (-2147483648) (min 2147483647 n) : ℤ) : ℝ) - v| ≤ 1 / 2 := by
    intro n hn
    have hn' := hn
    rw [abs_le] at hn
    have h1 : n ≤ 2147483647 := by
      have : (n : ℝ) ≤ (2147483647 : ℤ) := by push_cast; linarith
      exact_mod_cast this
    have h2 : -2147483648 ≤ n := by
      have : ((-2147483648 : ℤ) : ℝ) ≤ n := by push_cast; linarith
      exact_mod_cast this
    rw [min_eq_right h1, max_eq_right h2]
    exact hn'
  apply this
  split
  · have := Int.le_ceil (v - 1 / 2); have := Int.ceil_lt_add_one (v - 1 / 2)
    rw [abs_le]; constructor <;> linarith
  · have := Int.floor_le (v + 1 / 2); have := Int.lt_floor_add_one (v + 1 / 2)
    rw [abs_le]; constructor <;> linarith

omit [Libm b32] [Junk] in
/-- A position inside the area of the pixels is rounded to one of them. -/
theorem in_range {n : ℤ} {v : ℝ} {w : Nat} (hn : |(n : ℝ) - v| ≤ 1 / 2) (h1 : -1 / 2 < v) (h2 : v < w - 1 / 2) :
    0 ≤ n ∧ n < w := by
  rw [abs_le] at hn
  constructor
  · have : ((-1 : ℤ) : ℝ) < n := by push_cast; linarith
    have : -1 < n := by exact_mod_cast this
    omega
  · have : (n : ℝ) < ((w : ℤ) : ℝ) := by push_cast; linarith
    exact_mod_cast this

omit [Libm b32] [Junk] in
theorem out_of_range {n : ℤ} {v : ℝ} {w : Nat} (hn : |(n : ℝ) - v| ≤ 1 / 2)
    (h : v < -1 / 2 ∨ w - 1 / 2 < v) : ¬ (0 ≤ n ∧ n < w) := by
  rw [abs_le] at hn
  rintro ⟨h1, h2⟩
  have h1' : (0 : ℝ) ≤ n := by exact_mod_cast h1
  have h2' : (n : ℝ) + 1 ≤ w := by exact_mod_cast h2
  rcases h with h | h <;> linarith

omit [Libm b32] [Junk] in
theorem low {q : ℚ} (h : (-1 : ℝ) ≤ q) : -1 ≤ q := by exact_mod_cast h
omit [Libm b32] [Junk] in
theorem high {q : ℚ} (h : (q : ℝ) ≤ 4194304) : q ≤ 4194304 := by exact_mod_cast h

/-- Both arithmetics skip the case of a full turn. -/
theorem not_full {angle : F32} (ha : angle.fin = true) (hl : |angle.val| ≤ 720)
    (hf : 1 / 2 ^ 23 ≤ |angle.val - 360|) :
    (Scalar.abs (angle -. lit 360) <. lit (1 / 8388608)) = false ∧
      (Scalar.abs ((angle.val : ℝ) -. lit 360) <. lit (1 / 8388608)) = false := by
  constructor
  · have l : (lit 360 : F32).fin = true ∧ (lit 360 : F32).val = 360 := by
      show (FP.ofRat b32 false 360).fin = true ∧ (FP.ofRat b32 false 360).val = 360
      decide +kernel
    have l2 : (lit (1 / 8388608) : F32).fin = true ∧ (lit (1 / 8388608) : F32).val = 1 / 8388608 := by
      show (FP.ofRat b32 false (1 / 8388608)).fin = true ∧ (FP.ofRat b32 false (1 / 8388608)).val = 1 / 8388608
      decide +kernel
    have e : (angle -. lit 360 : F32) = FP.sub angle (lit 360) := rfl
    rw [e, FP.sub_fin ha l.1, l.2]
    have hb : |angle.val - 360| ≤ pow2 11 := by
      have : pow2 11 = 2048 := by decide +kernel
      rw [this]
      rw [abs_le] at hl ⊢
      constructor <;> linarith
    obtain ⟨d1, d2⟩ := FP.ofRat_small (s := angle.isNeg && (FP.neg (lit 360 : F32)).isNeg) (by decide) (by decide) hb
    obtain ⟨a1, a2⟩ := FP.abs_fin d1
    show FP.lt (FP.abs _) _ = false
    rw [FP.lt_fin a1 l2.1, a2, d2, l2.2]
    have rep : IsRep b32 (1 / 8388608) := by
      have := IsRep.pow2 (f := b32) (k := -23) (by decide)
      have e : pow2 (-23) = 1 / 8388608 := by decide +kernel
      rwa [e] at this
    have : ¬ |rn b32 (angle.val - 360)| < 1 / 8388608 := by
      rw [not_lt]
      have hf' : (1 : ℚ) / 8388608 ≤ |angle.val - 360| := by norm_num at hf ⊢; exact hf
      rcases le_abs.1 hf' with h | h
      · exact (rep_le_rn rep h).trans (le_abs_self _)
      · have h2 : angle.val - 360 ≤ -(1 / 8388608) := by linarith
        have := rn_le_rep rep.neg h2
        rw [le_abs]; right; linarith
    simpa using this
  · rw [Bool.eq_false_iff]
    intro h
    rw [Exact.lt] at h
    ex_simp at h
    have hf' := (Rat.cast_le (K := ℝ)).2 hf
    push_cast at hf' h
    norm_num at hf' h
    linarith

end Positions

/-! ## C105 -/

section Both
variable [Libm b32] [Junk]

/-- What `rotateError` gives: the two positions fall on the same side of the border. -/
theorem rotate_sides {δ : ℝ} (hs : SinCosWithin δ) (hδ0 : 0 ≤ δ) (hδ : δ ≤ 1 / 8) {angle : F32}
    (ha : angle.fin = true) (hl : |angle.val| ≤ 720) {w h x y : Nat} (hsz : w + h ≤ 2097152) (hx : x < w)
    (hy : y < h) :
    let p := rotatedFrom w h angle x y
    let q := rotatedFrom w h (angle.val : ℝ) x y
    (ClearlyInside w h (rotateError δ w h) q →
      (inside w h p.1 p.2 ∧ inside w h q.1 q.2) ∧
      (-1 / 2 < (p.1.val : ℝ) ∧ (p.1.val : ℝ) < w - 1 / 2) ∧
      (-1 / 2 < (p.2.val : ℝ) ∧ (p.2.val : ℝ) < h - 1 / 2) ∧
      |((Scalar.asI32 (Scalar.round p.1) : ℤ) : ℝ) - q.1| ≤ 1 / 2 + rotateError δ w h ∧
      |((Scalar.asI32 (Scalar.round p.2) : ℤ) : ℝ) - q.2| ≤ 1 / 2 + rotateError δ w h) ∧
    (ClearlyOutside w h (rotateError δ w h) q → ¬ inside w h p.1 p.2 ∧ ¬ inside w h q.1 q.2) := by
  intro p q
  obtain ⟨⟨c1, c2⟩, l1, l2⟩ := rotated_near hs hδ ha hl hsz hx hy
  have M0 : 0 ≤ rotateError δ w h := by unfold rotateError; positivity
  have hN : (w : ℝ) + h ≤ 2097152 := by exact_mod_cast hsz
  have M1 : rotateError δ w h ≤ 2097152 * (1 / 16 + 37 / 2 ^ 25) := by
    unfold rotateError
    refine mul_le_mul hN (by linarith) (by positivity) (by norm_num)
  norm_num at M1
  change Close p.1 q.1 _ at c1
  change Close p.2 q.2 _ at c2
  change |q.1| ≤ _ at l1
  change |q.2| ≤ _ at l2
  have big : ∀ {v : F32} {u : ℝ}, Close v u (rotateError δ w h) → |u| ≤ w + h + 1 → |v.val| ≤ 4194306 := by
    intro v u c l
    have : |(v.val : ℝ)| ≤ 4194306 := by
      have := abs_add_le u (v.val - u)
      rw [add_sub_cancel] at this
      have := c.err
      linarith
    exact_mod_cast this
  have r1 := rounds_to c1.fin (big c1 l1)
  have r2 := rounds_to c2.fin (big c2 l2)
  have s1 := rounds_to_exact (v := q.1) (by linarith)
  have s2 := rounds_to_exact (v := q.2) (by linarith)
  have d1 := abs_le.1 c1.err
  have d2 := abs_le.1 c2.err
  generalize rotateError δ w h = M at *
  constructor
  · rintro ⟨⟨i1, i2⟩, i3, i4⟩
    have p1 := in_range (w := w) r1 (by linarith) (by linarith)
    have p2 := in_range (w := h) r2 (by linarith) (by linarith)
    have q1 := in_range (w := w) s1 (by linarith) (by linarith)
    have q2 := in_range (w := h) s2 (by linarith) (by linarith)
    have near : ∀ {n : ℤ} {v u : ℝ}, |(n : ℝ) - v| ≤ 1 / 2 → |v - u| ≤ M → |(n : ℝ) - u| ≤ 1 / 2 + M :=
      fun h1 h2 => (abs_sub_le _ _ _).trans (add_le_add h1 h2)
    exact ⟨⟨⟨p1.1, p1.2, p2⟩, ⟨q1.1, q1.2, q2⟩⟩, ⟨by linarith, by linarith⟩, ⟨by linarith, by linarith⟩,
      near r1 c1.err, near r2 c2.err⟩
  · rintro (o | o)
    · refine ⟨fun i => out_of_range r1 ?_ ⟨i.1, i.2.1⟩, fun i => out_of_range s1 ?_ ⟨i.1, i.2.1⟩⟩
      · rcases o with o | o
        · left; linarith
        · right; linarith
      · rcases o with o | o
        · left; linarith
        · right; linarith
    · refine ⟨fun i => out_of_range r2 ?_ i.2.2, fun i => out_of_range s2 ?_ i.2.2⟩
      · rcases o with o | o
        · left; linarith
        · right; linarith
      · rcases o with o | o
        · left; linarith
        · right; linarith

/-- **Where the background shows.** Rotating in binary32 and in exact arithmetic: a pixel whose exact
rotated-back position is outside the picture by more than the rounding error is the background colour in
both. -/
theorem C105_background {δ : ℝ} (hs : SinCosWithin δ) (hδ0 : 0 ≤ δ) (hδ : δ ≤ 1 / 8)
    {b : PixelBuffer (Col F32)} {w h px} (s : Shows b w h px) (hsz : w + h ≤ 2097152) (bg : Col F32)
    {angle : F32} (ha : angle.fin = true) (hl : |angle.val| ≤ 720)
    (hf : 1 / 2 ^ 23 ≤ |angle.val - 360|) (filter : FilterMode) :
    ∃ b' px', rotate b angle bg filter = .ok b' ∧ Shows b' w h px' ∧
      ∀ x y, x < w → y < h →
        ClearlyOutside w h (rotateError δ w h) (rotatedFrom w h (angle.val : ℝ) x y) → px' x y = bg := by
  obtain ⟨b', e, s'⟩ := C21_rotate s angle bg filter (not_full ha hl hf).1
  refine ⟨b', _, e, s', fun x y hx hy o => ?_⟩
  have := ((rotate_sides hs hδ0 hδ ha hl hsz hx hy).2 o).1
  unfold rotated
  rw [if_neg this]

/-- **Bilinear rotation.** For a picture with channels in [0, 1], an angle of at most two turns and a
platform whose `sin` and `cos` are within `δ`: each channel of each pixel whose exact rotated-back position
is inside the picture by more than the rounding error of the position is close to that of the same program
in exact arithmetic. -/
theorem C105_bilinear {δ : ℝ} (hs : SinCosWithin δ) (hδ0 : 0 ≤ δ) (hδ : δ ≤ 1 / 8)
    {b : PixelBuffer (Col F32)} {e : PixelBuffer (Col ℝ)} {w h px}
    (s : Shows b w h px) (t : Shows e w h fun x y => exact (px x y)) (hsz : w + h ≤ 2097152)
    (hu : ∀ x y, x < w → y < h → UnitCol (px x y)) (bg : Col F32)
    {angle : F32} (ha : angle.fin = true) (hl : |angle.val| ≤ 720)
    (hf : 1 / 2 ^ 23 ≤ |angle.val - 360|) :
    ∃ b' e' px' ex', rotate b angle bg .Bilinear = .ok b' ∧ Shows b' w h px' ∧
      rotate e (angle.val : ℝ) (exact bg) .Bilinear = .ok e' ∧ Shows e' w h ex' ∧
      ∀ x y, x < w → y < h →
        ClearlyInside w h (rotateError δ w h) (rotatedFrom w h (angle.val : ℝ) x y) →
        CloseCol (2 * rotateError δ w h + 20 / 2 ^ 24) (px' x y) (ex' x y) := by
  obtain ⟨b', e1, s'⟩ := C21_rotate s angle bg .Bilinear (not_full ha hl hf).1
  obtain ⟨e', e2, t'⟩ := C21_rotate t (angle.val : ℝ) (exact bg) .Bilinear (not_full ha hl hf).2
  refine ⟨b', e', _, _, e1, s', e2, t', fun x y hx hy i => ?_⟩
  obtain ⟨⟨i1, i2⟩, ⟨x1, x2⟩, ⟨y1, y2⟩, -⟩ := (rotate_sides hs hδ0 hδ ha hl hsz hx hy).1 i
  obtain ⟨⟨c1, c2⟩, -⟩ := rotated_near hs hδ ha hl hsz hx hy
  have M0 : 0 ≤ rotateError δ w h := by unfold rotateError; positivity
  have hw : (w : ℝ) + h ≤ 2097152 := by exact_mod_cast hsz
  have w0 : (0 : ℝ) ≤ w := Nat.cast_nonneg w
  have h0 : (0 : ℝ) ≤ h := Nat.cast_nonneg h
  obtain ⟨⟨j1, j2⟩, j3, j4⟩ := i
  unfold rotated
  rw [if_pos i1, if_pos i2]
  have k := bilinear_move (by omega : 0 < w) (by omega : 0 < h) hu c1.fin
    (low (by linarith)) (high (by linarith)) c1.err (by linarith) (by linarith) c2.fin
    (low (by linarith)) (high (by linarith)) c2.err (by linarith) (by linarith)
  have e : rotateError δ w h + rotateError δ w h + 40 / 33554432 = 2 * rotateError δ w h + 20 / 2 ^ 24 := by
    norm_num; ring
  rwa [e] at k

/-- **Bicubic rotation**, likewise; the automatic filter rotates with the bicubic one. -/
theorem C105_bicubic {δ : ℝ} (hs : SinCosWithin δ) (hδ0 : 0 ≤ δ) (hδ : δ ≤ 1 / 8)
    {b : PixelBuffer (Col F32)} {e : PixelBuffer (Col ℝ)} {w h px}
    (s : Shows b w h px) (t : Shows e w h fun x y => exact (px x y)) (hsz : w + h ≤ 2097152)
    (hu : ∀ x y, x < w → y < h → UnitCol (px x y)) (bg : Col F32)
    {angle : F32} (ha : angle.fin = true) (hl : |angle.val| ≤ 720)
    (hf : 1 / 2 ^ 23 ≤ |angle.val - 360|) (filter : FilterMode) (hfm : filter = .Bicubic ∨ filter = .Auto) :
    ∃ b' e' px' ex', rotate b angle bg filter = .ok b' ∧ Shows b' w h px' ∧
      rotate e (angle.val : ℝ) (exact bg) filter = .ok e' ∧ Shows e' w h ex' ∧
      ∀ x y, x < w → y < h →
        ClearlyInside w h (rotateError δ w h) (rotatedFrom w h (angle.val : ℝ) x y) →
        CloseCol (5 * rotateError δ w h + 2470 / 2 ^ 24) (px' x y) (ex' x y) := by
  obtain ⟨b', e1, s'⟩ := C21_rotate s angle bg filter (not_full ha hl hf).1
  obtain ⟨e', e2, t'⟩ := C21_rotate t (angle.val : ℝ) (exact bg) filter (not_full ha hl hf).2
  refine ⟨b', e', _, _, e1, s', e2, t', fun x y hx hy i => ?_⟩
  obtain ⟨⟨i1, i2⟩, ⟨x1, x2⟩, ⟨y1, y2⟩, -⟩ := (rotate_sides hs hδ0 hδ ha hl hsz hx hy).1 i
  obtain ⟨⟨c1, c2⟩, -⟩ := rotated_near hs hδ ha hl hsz hx hy
  have M0 : 0 ≤ rotateError δ w h := by unfold rotateError; positivity
  have hw : (w : ℝ) + h ≤ 2097152 := by exact_mod_cast hsz
  have w0 : (0 : ℝ) ≤ w := Nat.cast_nonneg w
  have h0 : (0 : ℝ) ≤ h := Nat.cast_nonneg h
  obtain ⟨⟨j1, j2⟩, j3, j4⟩ := i
  have k := bicubic_move (by omega : 0 < w) (by omega : 0 < h) hu c1.fin
    (low (by linarith)) (high (by linarith)) c1.err (by linarith) (by linarith) c2.fin
    (low (by linarith)) (high (by linarith)) c2.err (by linarith) (by linarith)
  have e : 5 / 2 * (rotateError δ w h + rotateError δ w h) + 4940 / 33554432 =
      5 * rotateError δ w h + 2470 / 2 ^ 24 := by
    norm_num; ring
  rw [e] at k
  unfold rotated
  rw [if_pos i1, if_pos i2]
  rcases hfm with rfl | rfl <;> exact k

/-- **Nearest-pixel rotation.** A pixel whose exact rotated-back position is inside the picture by more
than the rounding error shows a pixel of the picture, not further from that position, in each direction,
than half a pixel and the rounding error. -/
theorem C105_nearest {δ : ℝ} (hs : SinCosWithin δ) (hδ0 : 0 ≤ δ) (hδ : δ ≤ 1 / 8)
    {b : PixelBuffer (Col F32)} {w h px} (s : Shows b w h px) (hsz : w + h ≤ 2097152) (bg : Col F32)
    {angle : F32} (ha : angle.fin = true) (hl : |angle.val| ≤ 720)
    (hf : 1 / 2 ^ 23 ≤ |angle.val - 360|) :
    ∃ b' px', rotate b angle bg .Nearest = .ok b' ∧ Shows b' w h px' ∧
      ∀ x y, x < w → y < h →
        let q := rotatedFrom w h (angle.val : ℝ) x y
        ClearlyInside w h (rotateError δ w h) q →
        ∃ i j : Nat, i < w ∧ j < h ∧ px' x y = px i j ∧
          |(i : ℝ) - q.1| ≤ 1 / 2 + rotateError δ w h ∧ |(j : ℝ) - q.2| ≤ 1 / 2 + rotateError δ w h := by
  obtain ⟨b', e1, s'⟩ := C21_rotate s angle bg .Nearest (not_full ha hl hf).1
  refine ⟨b', _, e1, s', ?_⟩
  intro x y hx hy q i
  obtain ⟨⟨i1, -⟩, -, -, n1, n2⟩ := (rotate_sides hs hδ0 hδ ha hl hsz hx hy).1 i
  have g := i1
  obtain ⟨g1, g2, g3, g4⟩ := g
  have tn : ∀ z : ℤ, 0 ≤ z → ((z.toNat : ℕ) : ℝ) = (z : ℝ) := fun z hz => by
    exact_mod_cast congrArg (Int.cast (R := ℝ)) (Int.toNat_of_nonneg hz)
  refine ⟨(Scalar.asI32 (Scalar.round (rotatedFrom w h angle x y).1)).toNat,
    (Scalar.asI32 (Scalar.round (rotatedFrom w h angle x y).2)).toNat, by omega, by omega, ?_, ?_, ?_⟩
  · unfold rotated
    rw [if_pos i1]
  · rw [tn _ g1]; exact n1
  · rw [tn _ g3]; exact n2

end Both

/-! ## Examples -/

/-- `sin` and `cos` that pick a binary32 number next to the exact value. -/
@[instance_reducible] noncomputable def nearestSinCos : Libm b32 :=
  { Libm.trivial b32 with
    sin := fun x => FP.ofRat b32 false
      (Classical.choose (exists_rat_near (Real.sin x.val) (show (0 : ℝ) < 1 / 33554432 by norm_num)))
    cos := fun x => FP.ofRat b32 false
      (Classical.choose (exists_rat_near (Real.cos x.val) (show (0 : ℝ) < 1 / 33554432 by norm_num))) }

/-- Sufficiently accurate `sin` and `cos` exist. -/
theorem nearestSinCos_within : @SinCosWithin nearestSinCos (1 / 8388608) := by
  intro x _ _
  let := nearestSinCos
  have e1 := Classical.choose_spec
    (exists_rat_near (Real.sin x.val) (show (0 : ℝ) < 1 / 33554432 by norm_num))
  have e2 := Classical.choose_spec
    (exists_rat_near (Real.cos x.val) (show (0 : ℝ) < 1 / 33554432 by norm_num))
  rw [abs_sub_comm] at e1 e2
  exact ⟨(NearF.round (b := false) (B := 1) 1 (by norm_num) e1.le (Real.abs_sin_le_one _)
      (by norm_num)).close.mono (by norm_num),
    (NearF.round (b := false) (B := 1) 1 (by norm_num) e2.le (Real.abs_cos_le_one _)
      (by norm_num)).close.mono (by norm_num)⟩

section Examples
variable [Libm b32] [Junk]

/-- With `sin` and `cos` within `2^-23`, the positions in a picture of 800 by 600 pixels are off by less
than 1/600 of a pixel. -/
example : rotateError (1 / 8388608) 800 600 < 1 / 600 := by
  unfold rotateError; norm_num

/-- The middle of the picture stays where it is, and is clearly inside. -/
example (angle : ℝ) : ClearlyInside 801 601 (rotateError (1 / 8388608) 801 601)
    (rotatedFrom 801 601 angle 400 300) := by
  obtain ⟨e1, e2⟩ := C21_rotated_position 801 601 angle 400 300
  norm_num at e1 e2
  have h1 : (rotatedFrom 801 601 angle 400 300).1 = 400 := by linarith
  have h2 : (rotatedFrom 801 601 angle 400 300).2 = 300 := by linarith
  unfold ClearlyInside rotateError
  rw [h1, h2]
  norm_num

/-- A rotation by 30 degrees meets the conditions on the angle. -/
example : (lit 30 : F32).fin = true ∧ |(lit 30 : F32).val| ≤ 720 ∧ 1 / 2 ^ 23 ≤ |(lit 30 : F32).val - 360| := by
  show (FP.ofRat b32 false 30).fin = true ∧ |(FP.ofRat b32 false 30).val| ≤ 720 ∧
    1 / 2 ^ 23 ≤ |(FP.ofRat b32 false 30).val - 360|
  decide +kernel

/-- A bilinear rotation by 30 degrees of a picture of 801 by 601 pixels: the pixel in the middle is within
1/255 of a full channel. -/
example (hs : SinCosWithin (1 / 8388608)) {b : PixelBuffer (Col F32)} {e : PixelBuffer (Col ℝ)} {px}
    (s : Shows b 801 601 px) (t : Shows e 801 601 fun x y => exact (px x y))
    (hu : ∀ x y, x < 801 → y < 601 → UnitCol (px x y)) (bg : Col F32) {angle : F32}
    (ha : angle.fin = true ∧ angle.val = 30) :
    ∃ b' e' px' ex', rotate b angle bg .Bilinear = .ok b' ∧ Shows b' 801 601 px' ∧
      rotate e (30 : ℝ) (exact bg) .Bilinear = .ok e' ∧ Shows e' 801 601 ex' ∧
      CloseCol (1 / 255) (px' 400 300) (ex' 400 300) := by
  have e30 : ((angle.val : ℚ) : ℝ) = 30 := by rw [ha.2]; norm_num
  obtain ⟨b', e', px', ex', h1, h2, h3, h4, h5⟩ := C105_bilinear hs (by norm_num) (by norm_num) s t
    (by norm_num) hu bg ha.1 (by rw [ha.2]; norm_num) (by rw [ha.2]; norm_num)
  rw [e30] at h3 h5
  refine ⟨b', e', px', ex', h1, h2, h3, h4, ?_⟩
  have k := h5 400 300 (by norm_num) (by norm_num) (by
    obtain ⟨e1, e2⟩ := C21_rotated_position 801 601 30 400 300
    norm_num at e1 e2
    have h1 : (rotatedFrom 801 601 (30 : ℝ) 400 300).1 = 400 := by linarith
    have h2 : (rotatedFrom 801 601 (30 : ℝ) 400 300).2 = 300 := by linarith
    unfold ClearlyInside rotateError
    rw [h1, h2]
    norm_num)
  have le : 2 * rotateError (1 / 8388608) 801 601 + 20 / 2 ^ 24 ≤ 1 / 255 := by unfold rotateError; norm_num
  exact ⟨k.c0.mono le, k.c1.mono le, k.c2.mono le, k.alpha.mono le⟩

end Examples

end D10
