import Verif.Lemmas.LanczosFloat
import Verif.Props.RotateFloat

/-!
# Lanczos resizing in binary32 stays close to the exact formula (C128)
-/

namespace D10
open Spec

/-! ## The window size of the automatic filter -/

section WindowSize

theorem near_min [Libm b32] {x y : F32} {p q : ℚ} {k : Nat} (hx : Near x p k) (hy : Near y q k) :
    Near (Scalar.min x y) (min p q) k := by
  have e : Scalar.min x y = if y.val < x.val then y else x := by
    unfold Scalar.min
    rw [FP.isNan_fin hx.fin, FP.isNan_fin hy.fin]
    simp only [Bool.false_eq_true, if_false]
    have : Scalar.lt y x = decide (y.val < x.val) := FP.lt_fin hy.fin hx.fin
    rw [this]
    simp only [decide_eq_true_eq]
  have hA := pow_pos relA_pos k
  have l : min p q / relA ^ k ≤ x.val ∧ min p q / relA ^ k ≤ y.val :=
    ⟨(div_le_div_of_nonneg_right (min_le_left _ _) hA.le).trans hx.lo,
      (div_le_div_of_nonneg_right (min_le_right _ _) hA.le).trans hy.lo⟩
  have u : min x.val y.val ≤ min p q * relA ^ k := by
    rcases min_choice p q with h | h <;> rw [h]
    · exact (min_le_left _ _).trans hx.hi
    · exact (min_le_right _ _).trans hy.hi
  rw [e]
  split_ifs with h
  · exact ⟨hy.fin, lt_min hx.pos hy.pos, l.2, by rwa [min_eq_right h.le] at u⟩
  · exact ⟨hx.fin, lt_min hx.pos hy.pos, l.1, by rwa [min_eq_left (not_lt.1 h)] at u⟩

theorem ceil_max_three [Libm b32] {W : F32} (hf : W.fin = true) (h1 : W.val ≤ 8388608) :
    (Scalar.asUsize (Scalar.ceil (Scalar.max W (lit 3))) : Int) = max 3 ⌈W.val⌉ := by
  have three : (lit 3 : F32).fin = true ∧ (lit 3 : F32).val = 3 := by
    show (FP.ofRat b32 false 3).fin = true ∧ (FP.ofRat b32 false 3).val = 3
    decide +kernel
  have hmax : (Scalar.max W (lit 3)).fin = true ∧ (Scalar.max W (lit 3)).val = max W.val 3 := by
    unfold Scalar.max
    rw [FP.isNan_fin hf, FP.isNan_fin three.1]
    simp only [Bool.false_eq_true, if_false]
    have hlt : Scalar.lt W (lit 3) = decide (W.val < 3) := by
      have := FP.lt_fin hf three.1
      rw [three.2] at this; exact this
    rw [hlt]
    by_cases hc : W.val < 3
    · simp only [hc, decide_true, if_true]
      exact ⟨three.1, by rw [three.2, max_eq_right hc.le]⟩
    · simp only [hc, decide_false, Bool.false_eq_true, if_false]
      exact ⟨hf, by rw [max_eq_left (not_lt.1 hc)]⟩
  have e : max 3 ⌈W.val⌉ = ⌈max W.val 3⌉ := by
    rcases le_total W.val 3 with h | h
    · rw [max_eq_right h, max_eq_left (Int.ceil_le.2 (by exact_mod_cast h))]
      exact (Int.ceil_intCast (R := ℚ) 3).symm
    · rw [max_eq_left h, max_eq_right]
      exact_mod_cast Int.le_ceil_iff.2 (by push_cast; linarith)
  rw [e]
  obtain ⟨v0, v1⟩ := hmax
  generalize Scalar.max W (lit 3) = V at v0 v1 ⊢
  have b3 : 3 ≤ V.val := by rw [v1]; exact le_max_right _ _
  have b8 : V.val ≤ 8388608 := by rw [v1]; exact max_le h1 (by norm_num)
  rw [← v1]
  clear v1
  cases V with
  | nan => simp [FP.fin] at v0
  | inf s => simp [FP.fin] at v0
  | zero s => exfalso; change (3 : ℚ) ≤ 0 at b3; norm_num at b3
  | num q hq =>
    change (3 : ℚ) ≤ q at b3
    change q ≤ 8388608 at b8
    have c3 : 3 ≤ ⌈q⌉ := by exact_mod_cast b3.trans (Int.le_ceil q)
    have c8 : ⌈q⌉ ≤ 8388608 := Int.ceil_le.2 (by exact_mod_cast b8)
    have r := FP.int_finite (f := b32) ⌈q⌉ (by
      have : (b32.prec) = 24 := rfl
      rw [this, abs_le]; constructor <;> norm_num <;> omega)
    have k1 := FP.le_toInt_ofRat (lo := 0) (hi := 18446744073709551615) (s := decide (q < 0)) r (le_refl (⌈q⌉ : ℚ))
      (by omega)
    have k2 := FP.toInt_ofRat_le (lo := 0) (hi := 18446744073709551615) (s := decide (q < 0)) r (le_refl (⌈q⌉ : ℚ))
      (by omega)
    show ((FP.toInt 0 18446744073709551615 (FP.ofRat b32 (decide (q < 0)) (⌈q⌉ : ℚ))).toNat : Int) = ⌈q⌉
    omega

private theorem rel_step {v A M : ℚ} (up : v ≤ M * 2 * A) (lo : M * 2 ≤ v * A) (hv : 0 < v) (M1 : 1 ≤ M)
    (M2 : M ≤ 2097152) (hA : A ≤ 1 + 1 / 1048576) : |v - 2 * M| ≤ 2 * M / 2 ^ 20 ∧ v ≤ 8388608 := by
  have a := mul_le_mul_of_nonneg_left hA (by linarith : (0 : ℚ) ≤ M * 2)
  have b := mul_le_mul_of_nonneg_left hA hv.le
  refine ⟨?_, by linarith⟩
  rw [abs_le]
  norm_num at a b ⊢
  constructor <;> linarith

/-- The size of the window, from a number that is the exact one up to a few roundings. -/
theorem autoWindow_near [Libm b32] {w h nw nh : Nat} (hnw : 0 < nw) (hw : nw < w) (hwl : w ≤ 2097152) (hnh : 0 < nh)
    (hh : nh < h) (hhl : h ≤ 2097152) :
    ∃ r : ℚ, |r - 2 * max ((w : ℚ) / nw) (h / nh)| ≤ 2 * max ((w : ℚ) / nw) (h / nh) / 2 ^ 20 ∧
      (autoWindow F32 w h nw nh : Int) = max 3 ⌈r⌉ := by
  have h1 : (1 : ℚ) ≤ nw := by exact_mod_cast hnw
  have h2 : (1 : ℚ) ≤ nh := by exact_mod_cast hnh
  have h3 : (w : ℚ) ≤ 2097152 := by exact_mod_cast hwl
  have h4 : (h : ℚ) ≤ 2097152 := by exact_mod_cast hhl
  have h5 : (nw : ℚ) ≤ w := by exact_mod_cast hw.le
  have h6 : (nh : ℚ) ≤ h := by exact_mod_cast hh.le
  have s1 := near_scale w nw hnw (by omega) (by omega) (by omega)
  have s2 := near_scale h nh hnh (by omega) (by omega) (by omega)
  have s := near_min s1 s2
  have e : 1 / min ((nw : ℚ) / w) (nh / h) = max ((w : ℚ) / nw) (h / nh) := by
    rcases le_total ((nw : ℚ) / w) (nh / h) with g | g
    · rw [min_eq_left g, max_eq_left, one_div_div]
      have := one_div_le_one_div_of_le (div_pos (by linarith) (by linarith)) g
      rwa [one_div_div, one_div_div] at this
    · rw [min_eq_right g, max_eq_right, one_div_div]
      have := one_div_le_one_div_of_le (div_pos (by linarith) (by linarith)) g
      rwa [one_div_div, one_div_div] at this
  have M1 : 1 ≤ max ((w : ℚ) / nw) (h / nh) := le_max_of_le_left (by rw [le_div_iff₀ (by linarith)]; linarith)
  have M2 : max ((w : ℚ) / nw) (h / nh) ≤ 2097152 :=
    max_le (by rw [div_le_iff₀ (by linarith)]; nlinarith) (by rw [div_le_iff₀ (by linarith)]; nlinarith)
  have one : Near (lit 1 : F32) 1 1 := Near.lit (by linarith [pow2_m99]) (by linarith [pow2_p99])
  have two : Near (lit 2 : F32) 2 1 := Near.lit (by linarith [pow2_m99]) (by linarith [pow2_p99])
  have hd := Near.div one s (by omega) (by rw [e]; linarith [pow2_m99]) (by rw [e]; linarith [pow2_p99])
  rw [e] at hd
  have hm := Near.mul hd two (by omega) (by linarith [pow2_m99]) (by linarith [pow2_p99])
  have hA7 : relA ^ (1 + 3 + 1 + 1 + 1) ≤ 1 + 1 / 1048576 := by norm_num [relA]
  have hp : (0 : ℚ) < relA ^ (1 + 3 + 1 + 1 + 1) := pow_pos relA_pos _
  generalize max ((w : ℚ) / nw) (h / nh) = M at *
  have up := hm.hi
  have lo := hm.lo
  rw [div_le_iff₀ hp] at lo
  have k := rel_step up lo hm.val_pos M1 M2 hA7
  exact ⟨_, k.1, ceil_max_three hm.fin k.2⟩

end WindowSize

section Sample
variable [Libm b32] [Junk]

/-- A sample with rounded weights at a position in the picture. -/
theorem windowed_close {δ : ℝ} (hδ : 0 ≤ δ) (hδ1 : δ ≤ 1 / 1000) {N : Nat} (h7 : 7 ≤ N) (hN : N ≤ 8192)
    {w h : Nat} {px : Nat → Nat → Col F32} (hw : 0 < w) (hh : 0 < h) (hu : ∀ x y, x < w → y < h → UnitCol (px x y))
    {wx wy : Nat → F32} {qx qy : Nat → ℝ} {vx vy : F32}
    (hx : ∀ i, i < N → NearF (wx i) (qx i) (7 / N * (2.01 * δ + 90 / 33554432) + 3.1 / 33554432) (7 / N))
    (hy : ∀ j, j < N → NearF (wy j) (qy j) (7 / N * (2.01 * δ + 90 / 33554432) + 3.1 / 33554432) (7 / N))
    (bx : base vx = base (vx.val : ℝ)) (by' : base vy = base (vy.val : ℝ)) :
    CloseCol (lanczosError δ N) (windowed w h px N wx wy vx vy)
      (windowed w h (fun x y => exact (px x y)) N qx qy vx.val vy.val) := by
  obtain ⟨k1, k2⟩ := window_cost hδ hδ1 h7 hN
  have hat : ∀ i j : Int, UnitCol (at' w h px i j) := fun i j => unit_at hw hh hu i j
  have key : ∀ (ch : Col F32 → F32) (ch' : Col ℝ → ℝ), (∀ c, ch' (exact c) = (ch c).val) →
      (∀ c, UnitCol c → (ch c).fin = true ∧ 0 ≤ (ch c).val ∧ (ch c).val ≤ 1) →
      Close (sum N fun j => (sum N fun i =>
        ch (at' w h px (base vx + i - (N / 2 : Nat)) (base vy + j - (N / 2 : Nat))) *. wx i) *. wy j)
      (sum N fun j => (sum N fun i =>
        ch' (at' w h (fun x y => exact (px x y)) (base (vx.val : ℝ) + i - (N / 2 : Nat))
          (base (vy.val : ℝ) + j - (N / 2 : Nat))) *. qx i) *. qy j) (lanczosError δ N) := by
    intro ch ch' e1 e2
    have := (window_near h7 hN hx hy k1 (c := fun i j =>
      ch (at' w h px (base vx + i - (N / 2 : Nat)) (base vy + j - (N / 2 : Nat)))) (fun i j => e2 _ (hat _ _))).mono k2
    have g : (sum N fun j => (sum N fun i =>
        ch' (at' w h (fun x y => exact (px x y)) (base (vx.val : ℝ) + i - (N / 2 : Nat))
          (base (vy.val : ℝ) + j - (N / 2 : Nat))) *. qx i) *. qy j) =
        ∑ j ∈ Finset.range N, (∑ i ∈ Finset.range N, ((ch (at' w h px (base vx + i - (N / 2 : Nat))
          (base vy + j - (N / 2 : Nat)))).val : ℝ) * qx i) * qy j := by
      rw [sum_range]
      refine Finset.sum_congr rfl fun j _ => ?_
      rw [Exact.mul, sum_range]
      refine congrArg (· * qy j) (Finset.sum_congr rfl fun i _ => ?_)
      rw [Exact.mul, ← bx, ← by', ← e1]
      rfl
    rw [g]
    exact this
  exact ⟨key Col.c0 Col.c0 (fun _ => rfl) (fun c h => h.c0), key Col.c1 Col.c1 (fun _ => rfl) (fun c h => h.c1),
    key Col.c2 Col.c2 (fun _ => rfl) (fun c h => h.c2), key Col.alpha Col.alpha (fun _ => rfl) (fun c h => h.alpha)⟩

/-- A position in the picture, in both arithmetics. -/
theorem place_both {v : F32} (hv : v.fin = true) (h0 : -1 ≤ v.val) (h1 : v.val ≤ 4194304) :
    base v = base (v.val : ℝ) ∧ NearF (frac v) (frac (v.val : ℝ)) (1 / 33554432) 1 ∧ 0 ≤ frac (v.val : ℝ) ∧
      frac (v.val : ℝ) ≤ 1 := by
  obtain ⟨a, b⟩ := base_frac_near hv h0 h1
  rw [base_lit (by exact_mod_cast h0) (by exact_mod_cast h1), frac_eq]
  exact ⟨by rw [a, Rat.floor_cast], b, Int.fract_nonneg _, (Int.fract_lt_one _).le⟩

/-- Lanczos sampling with a table of fixed size. -/
theorem lanczosAt_near {δ : ℝ} (hs : SinNear δ) (hδ : 0 ≤ δ) (hδ1 : δ ≤ 1 / 1000) {s : Nat} (h3 : 3 ≤ s) (hl : s ≤ 2047)
    {w h : Nat} {px : Nat → Nat → Col F32} (hw : 0 < w) (hh : 0 < h) (hu : ∀ x y, x < w → y < h → UnitCol (px x y))
    {vx vy : F32} (fx : vx.fin = true) (x0 : -1 ≤ vx.val) (x1 : vx.val ≤ 4194304)
    (fy : vy.fin = true) (y0 : -1 ≤ vy.val) (y1 : vy.val ≤ 4194304) :
    CloseCol (lanczosError δ (2 * s + 1)) (lanczosAt w h px (2 * s + 1) vx vy)
      (lanczosAt w h (fun x y => exact (px x y)) (2 * s + 1) vx.val vy.val) := by
  obtain ⟨a1, a2, a3, a4⟩ := place_both fx x0 x1
  obtain ⟨b1, b2, b3, b4⟩ := place_both fy y0 y1
  exact windowed_close hδ hδ1 (by omega) (by omega) hw hh hu
    (fun i hi => tap_near hs hδ hδ1 rfl h3 hl hi a2 a3 a4) (fun i hi => tap_near hs hδ hδ1 rfl h3 hl hi b2 b3 b4) a1 b1

/-- Lanczos sampling with a table of any size. -/
theorem lanczosDynAt_near {δ : ℝ} (hs : SinNear δ) (hδ : 0 ≤ δ) (hδ1 : δ ≤ 1 / 1000) {s : Nat} (h3 : 3 ≤ s) (hl : s ≤ 4095)
    {w h : Nat} {px : Nat → Nat → Col F32} (hw : 0 < w) (hh : 0 < h) (hu : ∀ x y, x < w → y < h → UnitCol (px x y))
    {vx vy : F32} (fx : vx.fin = true) (x0 : -1 ≤ vx.val) (x1 : vx.val ≤ 4194304)
    (fy : vy.fin = true) (y0 : -1 ≤ vy.val) (y1 : vy.val ≤ 4194304) :
    CloseCol (lanczosError δ (2 * s + 1)) (lanczosDynAt w h px s vx vy)
      (lanczosDynAt w h (fun x y => exact (px x y)) s vx.val vy.val) := by
  obtain ⟨a1, a2, a3, a4⟩ := place_both fx x0 x1
  obtain ⟨b1, b2, b3, b4⟩ := place_both fy y0 y1
  unfold lanczosDynAt
  rw [mul_comm s 2]
  exact windowed_close hδ hδ1 (by omega) (by omega) hw hh hu
    (fun i hi => dynTap_near hs hδ hδ1 rfl h3 hl hi a2 a3 a4) (fun i hi => dynTap_near hs hδ hδ1 rfl h3 hl hi b2 b3 b4)
    a1 b1

/-! ## C128 -/

/-- **The Lanczos filter.** Resizing a picture whose channels are in [0, 1], sizes up to 2^21, succeeds, and each
pixel of the result is within `200 δ + 93 / 2^18` of the exact Lanczos sum of the picture at a point not further
from the exact position of that pixel than `w / 2^22` and `h / 2^22`. -/
theorem C128_lanczos3 {δ : ℝ} (hs : SinNear δ) (hδ : 0 ≤ δ) (hδ1 : δ ≤ 1 / 1000) {b : PixelBuffer (Col F32)} {w h px}
    (s : Shows b w h px) (hw : 0 < w) (hu : ∀ x y, x < w → y < h → UnitCol (px x y)) {nw nh : Nat}
    (hv : ValidSize nw nh) (hne : ¬ (nw = w ∧ nh = h)) (hwl : w ≤ 2097152) (hhl : h ≤ 2097152) (hnw : nw ≤ 2097152)
    (hnh : nh ≤ 2097152) :
    ∃ b' px', resize b nw nh .Lanczos3 = .ok b' ∧ Shows b' nw nh px' ∧
      ∀ x y, x < nw → y < nh → ∃ gx gy : ℝ,
        |gx - (((x : ℝ) + 1 / 2) * w / nw - 1 / 2)| ≤ w / 2 ^ 22 ∧
        |gy - (((y : ℝ) + 1 / 2) * h / nh - 1 / 2)| ≤ h / 2 ^ 22 ∧
        CloseCol (lanczosError δ 7) (px' x y) (lanczosAt w h (fun x y => exact (px x y)) 7 gx gy) := by
  have hh : 0 < h := by rcases s.size with ⟨h1, _⟩ | ⟨_, h, _⟩ <;> omega
  obtain ⟨b', e1, s'⟩ := C18_resize s hw nw nh hv hne .Lanczos3 (by simp)
  refine ⟨b', _, e1, s', fun x y hx hy => ?_⟩
  obtain ⟨p1, p2, p3, p4, _⟩ := positions hw hwl hx hnw
  obtain ⟨q1, q2, q3, q4, _⟩ := positions hh hhl hy hnh
  rw [Exact.scaledPos_eq _ _ _ hw (by omega)] at p4
  rw [Exact.scaledPos_eq _ _ _ hh (by omega)] at q4
  refine ⟨_, _, by norm_num at p4 ⊢; exact p4, by norm_num at q4 ⊢; exact q4, ?_⟩
  exact lanczosAt_near hs hδ hδ1 (s := 3) (by norm_num) (by norm_num) hw hh hu p1 p2 p3 q1 q2 q3

/-- **The automatic filter, making a picture smaller**, likewise, by factors up to 2047. The window reaches
`max 3 ⌈m⌉` pixels in each direction, for a number `m` that is twice the larger factor up to one part in 2^20. -/
theorem C128_auto {δ : ℝ} (hs : SinNear δ) (hδ : 0 ≤ δ) (hδ1 : δ ≤ 1 / 1000) {b : PixelBuffer (Col F32)} {w h px}
    (s : Shows b w h px) (hw : 0 < w) (hu : ∀ x y, x < w → y < h → UnitCol (px x y)) {nw nh : Nat}
    (hv : ValidSize nw nh) (hnw0 : 0 < nw) (hnw : nw < w) (hnh : nh < h) (hwl : w ≤ 2097152) (hhl : h ≤ 2097152)
    (hfw : w ≤ 2047 * nw) (hfh : h ≤ 2047 * nh) :
    ∃ (m : ℝ) (size : Nat), |m - 2 * max ((w : ℝ) / nw) (h / nh)| ≤ 2 * max ((w : ℝ) / nw) (h / nh) / 2 ^ 20 ∧
      (size : Int) = max 3 ⌈m⌉ ∧
      ∃ b' px', resize b nw nh .Auto = .ok b' ∧ Shows b' nw nh px' ∧
        ∀ x y, x < nw → y < nh → ∃ gx gy : ℝ,
          |gx - (((x : ℝ) + 1 / 2) * w / nw - 1 / 2)| ≤ w / 2 ^ 22 ∧
          |gy - (((y : ℝ) + 1 / 2) * h / nh - 1 / 2)| ≤ h / 2 ^ 22 ∧
          CloseCol (lanczosError δ (2 * size + 1)) (px' x y)
            (if size ≤ 6 then lanczosAt w h (fun x y => exact (px x y)) (2 * size + 1) gx gy
              else lanczosDynAt w h (fun x y => exact (px x y)) size gx gy) := by
  have hh : 0 < h := by omega
  have hnh0 : 0 < nh := by rcases hv with ⟨h1, _⟩ | ⟨_, h, _⟩ <;> omega
  obtain ⟨b', e1, s'⟩ := C18_resize s hw nw nh hv (by omega) .Auto (fun _ => by omega)
  obtain ⟨r, r1, r2⟩ := autoWindow_near hnw0 hnw hwl hnh0 hnh hhl
  have f1 : (w : ℚ) / nw ≤ 2047 := by
    rw [div_le_iff₀ (by exact_mod_cast hnw0)]; exact_mod_cast hfw
  have f2 : (h : ℚ) / nh ≤ 2047 := by
    rw [div_le_iff₀ (by exact_mod_cast hnh0)]; exact_mod_cast hfh
  have f3 := max_le f1 f2
  have top : ⌈r⌉ ≤ 4095 := by
    refine Int.ceil_le.2 ?_
    have := (abs_le.1 r1).2
    norm_num at this ⊢
    linarith
  refine ⟨r, autoWindow F32 w h nw nh, ?_, by rw [r2, Rat.ceil_cast], b', _, e1, s', fun x y hx hy => ?_⟩
  · have : ((|r - 2 * max ((w : ℚ) / nw) (h / nh)| : ℚ) : ℝ) ≤ ((2 * max ((w : ℚ) / nw) (h / nh) / 2 ^ 20 : ℚ) : ℝ) :=
      Rat.cast_le.2 r1
    push_cast at this
    exact this
  obtain ⟨p1, p2, p3, p4, _⟩ := positions hw hwl hx (by omega : nw ≤ 2097152)
  obtain ⟨q1, q2, q3, q4, _⟩ := positions hh hhl hy (by omega : nh ≤ 2097152)
  rw [Exact.scaledPos_eq _ _ _ hw (by omega)] at p4
  rw [Exact.scaledPos_eq _ _ _ hh (by omega)] at q4
  refine ⟨_, _, by norm_num at p4 ⊢; exact p4, by norm_num at q4 ⊢; exact q4, ?_⟩
  unfold resized
  simp only [if_neg (by omega : ¬ (w ≤ nw ∨ h ≤ nh))]
  generalize autoWindow F32 w h nw nh = size at r2 ⊢
  split_ifs with h6
  · exact lanczosAt_near hs hδ hδ1 (by omega) (by omega) hw hh hu p1 p2 p3 q1 q2 q3
  · exact lanczosDynAt_near hs hδ hδ1 (by omega) (by omega) hw hh hu p1 p2 p3 q1 q2 q3

/-- **Rotating with the Lanczos filter**, by at most two turns: each pixel whose exact rotated-back position is
inside the picture by more than the rounding error is within the same bound of the exact Lanczos sum at a point
not further from that position than the rounding error. -/
theorem C128_rotate {δ ε : ℝ} (hs : SinNear δ) (hδ : 0 ≤ δ) (hδ1 : δ ≤ 1 / 1000) (hc : SinCosWithin ε) (hε : 0 ≤ ε)
    (hε1 : ε ≤ 1 / 8) {b : PixelBuffer (Col F32)} {w h px} (s : Shows b w h px) (hsz : w + h ≤ 2097152)
    (hu : ∀ x y, x < w → y < h → UnitCol (px x y)) (bg : Col F32) {angle : F32} (ha : angle.fin = true)
    (hl : |angle.val| ≤ 720) (hf : 1 / 2 ^ 23 ≤ |angle.val - 360|) :
    ∃ b' px', rotate b angle bg .Lanczos3 = .ok b' ∧ Shows b' w h px' ∧
      ∀ x y, x < w → y < h →
        let p := rotatedFrom w h (angle.val : ℝ) x y
        ClearlyInside w h (rotateError ε w h) p →
        ∃ gx gy : ℝ, |gx - p.1| ≤ rotateError ε w h ∧ |gy - p.2| ≤ rotateError ε w h ∧
          CloseCol (lanczosError δ 7) (px' x y) (lanczosAt w h (fun x y => exact (px x y)) 7 gx gy) := by
  obtain ⟨b', e1, s'⟩ := C21_rotate s angle bg .Lanczos3 (not_full ha hl hf).1
  refine ⟨b', _, e1, s', fun x y hx hy => ?_⟩
  intro p i
  obtain ⟨⟨i1, -⟩, ⟨x1, x2⟩, ⟨y1, y2⟩, -⟩ := (rotate_sides hc hε hε1 ha hl hsz hx hy).1 i
  obtain ⟨⟨c1, c2⟩, -⟩ := rotated_near hc hε1 ha hl hsz hx hy
  have hw : (w : ℝ) + h ≤ 2097152 := by exact_mod_cast hsz
  have w0 : (0 : ℝ) ≤ w := Nat.cast_nonneg w
  have h0 : (0 : ℝ) ≤ h := Nat.cast_nonneg h
  refine ⟨_, _, c1.err, c2.err, ?_⟩
  unfold rotated
  rw [if_pos i1]
  exact lanczosAt_near hs hδ hδ1 (s := 3) (by norm_num) (by norm_num) (by omega : 0 < w) (by omega : 0 < h) hu c1.fin
    (low (by linarith)) (high (by linarith)) c2.fin (low (by linarith)) (high (by linarith))

end Sample

/-! ## Examples -/

open Classical in
/-- A `sin` that keeps small numbers and else picks a binary32 number next to the exact value. -/
@[instance_reducible] noncomputable def accurateSin : Libm b32 :=
  { nearestSinCos with
    sin := fun x => if |x.val| ≤ 1 / 4096 then x else FP.ofRat b32 false
      (Classical.choose (exists_rat_near (Real.sin x.val) (show (0 : ℝ) < 1 / 2 ^ 38 by norm_num))) }

private theorem real_le {a b : ℚ} {c d : ℝ} (h : a ≤ b) (ha : (a : ℝ) = c) (hb : (b : ℝ) = d) : c ≤ d := by
  rw [← ha, ← hb]; exact_mod_cast h

private theorem sin_small {x : ℝ} (hx : |x| ≤ 1 / 4096) : |x - Real.sin x| ≤ |x| / 2 ^ 24 := by
  wlog h : 0 ≤ x generalizing x
  · have := this (x := -x) (by rwa [abs_neg]) (by linarith)
    rw [Real.sin_neg, abs_neg] at this
    have e : -x - -Real.sin x = -(x - Real.sin x) := by ring
    rwa [e, abs_neg] at this
  rcases h.eq_or_lt with h | h
  · simp [← h]
  rw [abs_of_pos h] at hx ⊢
  have a := Real.sin_lt h
  have c := Real.sin_gt_sub_cube h
  rw [abs_of_pos (by linarith)]
  have sq : x * x ≤ 1 / 4096 * (1 / 4096) := mul_le_mul hx hx h.le (by norm_num)
  have := mul_le_mul_of_nonneg_left sq h.le
  norm_num at this ⊢
  nlinarith

private theorem chosen_near (x : ℝ) :
    let q := Classical.choose (exists_rat_near (Real.sin x) (show (0 : ℝ) < 1 / 2 ^ 38 by norm_num))
    |(q : ℝ) - Real.sin x| ≤ 1 / 2 ^ 38 := by
  intro q
  have e := Classical.choose_spec (exists_rat_near (Real.sin x) (show (0 : ℝ) < 1 / 2 ^ 38 by norm_num))
  rw [abs_sub_comm] at e
  exact e.le

private theorem accurateSin_large (x : F32) :
    letI := accurateSin
    ¬ |x.val| ≤ 1 / 4096 → Close (Scalar.sin x) (Real.sin x.val) (1 / 2 ^ 23) := by
  intro h
  let _ := accurateSin
  have e : Scalar.sin x = FP.ofRat b32 false (Classical.choose (exists_rat_near (Real.sin x.val)
      (show (0 : ℝ) < 1 / 2 ^ 38 by norm_num))) := by
    show (if _ then _ else _) = _
    rw [if_neg h]
  rw [e]
  exact (NearF.round (b := false) (B := 1) 1 (by norm_num) (chosen_near _) (Real.abs_sin_le_one _)
      (by norm_num)).close.mono (by norm_num)

/-- It is accurate enough for the filters ... -/
theorem accurateSin_near : @SinNear accurateSin (1 / 2 ^ 22) := by
  intro x hf h0 _
  let _ := accurateSin
  have x0 : (0 : ℝ) < x.val := by exact_mod_cast h0
  by_cases h : |x.val| ≤ 1 / 4096
  · have e : Scalar.sin x = x := by
      show (if _ then _ else _) = _
      rw [if_pos h]
    rw [e]
    refine ⟨hf, (sin_small (real_le h (by push_cast; rfl) (by norm_num))).trans ?_⟩
    rw [abs_of_pos x0]
    norm_num
    linarith
  · by_cases h1 : x.val ≤ 1
    · have e : Scalar.sin x = FP.ofRat b32 false (Classical.choose (exists_rat_near (Real.sin x.val)
          (show (0 : ℝ) < 1 / 2 ^ 38 by norm_num))) := by
        show (if _ then _ else _) = _
        rw [if_neg h]
      have c := chosen_near x.val
      rw [e]
      generalize Classical.choose (exists_rat_near (Real.sin x.val) (show (0 : ℝ) < 1 / 2 ^ 38 by norm_num)) = q at c ⊢
      have x1 : (x.val : ℝ) ≤ 1 := by exact_mod_cast h1
      have xl : (1 / 4096 : ℝ) ≤ x.val := by
        have := not_le.1 h
        rw [abs_of_pos h0] at this
        exact real_le this.le (by norm_num) rfl
      have s1 := Real.sin_lt x0
      have s2 := Real.sin_gt_sub_cube x0
      have s3 : (x.val : ℝ) ^ 3 ≤ x.val := by
        have := mul_le_one₀ x1 x0.le x1
        nlinarith
      have c' := abs_le.1 c
      norm_num at c'
      have q0 : (1 / 8192 : ℝ) ≤ q := by linarith
      have q1 : (q : ℝ) ≤ 2 := by linarith
      have q0' : (1 / 8192 : ℚ) ≤ q := by
        have : ((1 / 8192 : ℚ) : ℝ) ≤ q := by push_cast; exact q0
        exact_mod_cast this
      have q1' : q ≤ 2 := by exact_mod_cast q1
      have n := Near.lit (s := false) (q := q) (by linarith [pow2_m99]) (by linarith [pow2_p99])
      refine ⟨n.fin, ?_⟩
      have lo : (q : ℝ) ≤ (FP.ofRat b32 false q).val * (1 + 1 / 8388608) := by
        have := n.lo
        rw [pow_one, div_le_iff₀ relA_pos, relA] at this
        exact real_le this rfl (by push_cast; rfl)
      have hi : ((FP.ofRat b32 false q).val : ℝ) ≤ q * (1 + 1 / 8388608) := by
        have := n.hi
        rw [pow_one, relA] at this
        exact real_le this rfl (by push_cast; rfl)
      rw [abs_le]
      norm_num at lo hi ⊢
      constructor <;> linarith
    · have := accurateSin_large x h
      have x1 : (1 : ℝ) < x.val := by exact_mod_cast not_le.1 h1
      refine this.mono ?_
      norm_num
      linarith

/-- ... and for rotation. -/
theorem accurateSin_within : @SinCosWithin accurateSin (1 / 8388608) := by
  intro x hf hx
  let _ := accurateSin
  refine ⟨?_, (nearestSinCos_within x hf hx).2⟩
  by_cases h : |x.val| ≤ 1 / 4096
  · have e : Scalar.sin x = x := by
      show (if _ then _ else _) = _
      rw [if_pos h]
    rw [e]
    have h' : |(x.val : ℝ)| ≤ 1 / 4096 := real_le h (by push_cast; rfl) (by norm_num)
    refine ⟨hf, (sin_small h').trans ?_⟩
    norm_num at h' ⊢
    linarith
  · exact (accurateSin_large x h).mono (by norm_num)

/-- With such a `sin`, the Lanczos filter is within 1/2000, an eighth of a step of an 8-bit channel, and the
automatic filter for a picture made eight times smaller within 1/1000. -/
example : lanczosError (1 / 2 ^ 22) 7 < 1 / 2000 ∧ lanczosError (1 / 2 ^ 22) 33 < 1 / 1000 := by
  unfold lanczosError; norm_num

/-- Black and white side by side, enlarged to five by three pixels: the one in the middle. -/
example [Junk] : letI := accurateSin
    ∃ b' px', resize (⟨2, 1, [⟨lit 0, lit 0, lit 0, lit 1⟩, ⟨lit 1, lit 1, lit 1, lit 1⟩]⟩ : PixelBuffer (Col F32)) 5 3
      .Lanczos3 = .ok b' ∧ Shows b' 5 3 px' ∧ ∃ gx gy : ℝ, |gx - 1 / 2| ≤ 1 / 2 ^ 21 ∧ |gy| ≤ 1 / 2 ^ 22 ∧
        CloseCol (1 / 2000) (px' 2 1) (lanczosAt 2 1 (fun x _ => if x = 0 then ⟨0, 0, 0, 1⟩ else ⟨1, 1, 1, 1⟩) 7 gx gy) := by
  let _ := accurateSin
  have z : (lit 0 : F32).fin = true ∧ (lit 0 : F32).val = 0 := by
    show (FP.ofRat b32 false 0).fin = true ∧ (FP.ofRat b32 false 0).val = 0
    decide +kernel
  have o : (lit 1 : F32).fin = true ∧ (lit 1 : F32).val = 1 := by
    show (FP.ofRat b32 false 1).fin = true ∧ (FP.ofRat b32 false 1).val = 1
    decide +kernel
  have z' : (lit 0 : F32).fin = true ∧ 0 ≤ (lit 0 : F32).val ∧ (lit 0 : F32).val ≤ 1 := by rw [z.2]; exact ⟨z.1, by norm_num⟩
  have o' : (lit 1 : F32).fin = true ∧ 0 ≤ (lit 1 : F32).val ∧ (lit 1 : F32).val ≤ 1 := by rw [o.2]; exact ⟨o.1, by norm_num⟩
  obtain ⟨b', px', h1, h2, h3⟩ := C128_lanczos3 accurateSin_near (by norm_num) (by norm_num)
    (b := ⟨2, 1, [⟨lit 0, lit 0, lit 0, lit 1⟩, ⟨lit 1, lit 1, lit 1, lit 1⟩]⟩) (w := 2) (h := 1)
    (px := fun x _ => if x = 0 then ⟨lit 0, lit 0, lit 0, lit 1⟩ else ⟨lit 1, lit 1, lit 1, lit 1⟩)
    ⟨rfl, rfl, Or.inr (by norm_num), rfl⟩ (by norm_num)
    (fun x y _ _ => by
      by_cases h : x = 0
      · simp only [h, if_true]; exact ⟨z', z', z', o'⟩
      · simp only [h, if_false]; exact ⟨o', o', o', o'⟩)
    (nw := 5) (nh := 3) (Or.inr (by norm_num)) (by norm_num) (by norm_num) (by norm_num) (by norm_num) (by norm_num)
  refine ⟨b', px', h1, h2, ?_⟩
  obtain ⟨gx, gy, g1, g2, c⟩ := h3 2 1 (by norm_num) (by norm_num)
  norm_num at g1 g2
  refine ⟨gx, gy, by norm_num; exact g1, by norm_num; exact g2, ?_⟩
  have e : (fun x y => exact ((fun x _ => if x = 0 then (⟨lit 0, lit 0, lit 0, lit 1⟩ : Col F32) else
      ⟨lit 1, lit 1, lit 1, lit 1⟩) x y : Col F32)) =
      fun (x _ : Nat) => if x = 0 then (⟨0, 0, 0, 1⟩ : Col ℝ) else ⟨1, 1, 1, 1⟩ := by
    funext x _
    by_cases h : x = 0 <;> simp [h, exact, z.2, o.2]
  rw [e] at c
  have le : lanczosError (1 / 2 ^ 22) 7 ≤ 1 / 2000 := by unfold lanczosError; norm_num
  exact ⟨c.c0.mono le, c.c1.mono le, c.c2.mono le, c.alpha.mono le⟩

/-- A white picture of 24 by 16 pixels made smaller, to 3 by 4, with the automatic filter. -/
example [Junk] : letI := accurateSin
    ∃ (m : ℝ) (size : Nat), |m - 16| ≤ 1 / 2 ^ 16 ∧ (size : Int) = max 3 ⌈m⌉ ∧
      ∃ b' px', resize (⟨24, 16, rows 24 16 fun _ _ => ⟨lit 1, lit 1, lit 1, lit 1⟩⟩ : PixelBuffer (Col F32)) 3 4
        .Auto = .ok b' ∧ Shows b' 3 4 px' ∧ (px' 1 2).c0.fin = true := by
  let _ := accurateSin
  have o : (lit 1 : F32).fin = true ∧ 0 ≤ (lit 1 : F32).val ∧ (lit 1 : F32).val ≤ 1 := by
    show (FP.ofRat b32 false 1).fin = true ∧ 0 ≤ (FP.ofRat b32 false 1).val ∧ (FP.ofRat b32 false 1).val ≤ 1
    decide +kernel
  obtain ⟨m, size, h1, h2, b', px', h3, h4, h5⟩ := C128_auto accurateSin_near (by norm_num) (by norm_num)
    (b := ⟨24, 16, rows 24 16 fun _ _ => ⟨lit 1, lit 1, lit 1, lit 1⟩⟩) (w := 24) (h := 16)
    (px := fun _ _ => ⟨lit 1, lit 1, lit 1, lit 1⟩) ⟨rfl, rfl, Or.inr (by norm_num), rfl⟩ (by norm_num)
    (fun x y _ _ => ⟨o, o, o, o⟩) (nw := 3) (nh := 4) (Or.inr (by norm_num)) (by norm_num) (by norm_num) (by norm_num)
    (by norm_num) (by norm_num) (by norm_num) (by norm_num)
  obtain ⟨_, _, _, _, c⟩ := h5 1 2 (by norm_num) (by norm_num)
  exact ⟨m, size, by norm_num at h1 ⊢; exact h1, h2, b', px', h3, h4, c.c0.fin⟩

/-- A rotation by 30 degrees: in a picture of 801 by 601 pixels the pixel in the middle comes from a point less than
1/500 of a pixel away. -/
example [Junk] {b : PixelBuffer (Col F32)} {px} (s : Shows b 801 601 px)
    (hu : ∀ x y, x < 801 → y < 601 → UnitCol (px x y)) (bg : Col F32) : letI := accurateSin
    ∃ b' px', rotate b (lit 30) bg .Lanczos3 = .ok b' ∧ Shows b' 801 601 px' ∧
        ∃ gx gy : ℝ, |gx - 400| ≤ 1 / 500 ∧ |gy - 300| ≤ 1 / 500 ∧ CloseCol (1 / 2000) (px' 400 300)
          (lanczosAt 801 601 (fun x y => exact (px x y)) 7 gx gy) := by
  let _ := accurateSin
  have t : (lit 30 : F32).fin = true ∧ (lit 30 : F32).val = 30 := by
    show (FP.ofRat b32 false 30).fin = true ∧ (FP.ofRat b32 false 30).val = 30
    decide +kernel
  obtain ⟨b', px', h1, h2, h3⟩ := C128_rotate accurateSin_near (by norm_num) (by norm_num) accurateSin_within
    (by norm_num) (by norm_num) s (by norm_num) hu bg t.1 (by rw [t.2]; norm_num) (by rw [t.2]; norm_num)
  have k := h3 400 300 (by norm_num) (by norm_num)
  rw [t.2] at k
  obtain ⟨e1, e2⟩ := C21_rotated_position 801 601 ((30 : ℚ) : ℝ) 400 300
  norm_num at e1 e2
  have p1 : (rotatedFrom 801 601 ((30 : ℚ) : ℝ) 400 300).1 = 400 := by norm_num; linarith
  have p2 : (rotatedFrom 801 601 ((30 : ℚ) : ℝ) 400 300).2 = 300 := by norm_num; linarith
  have small : rotateError (1 / 8388608) 801 601 ≤ 1 / 500 := by unfold rotateError; norm_num
  obtain ⟨gx, gy, g1, g2, c⟩ := k (by
    unfold ClearlyInside
    rw [p1, p2]
    norm_num
    refine ⟨⟨?_, ?_⟩, ?_, ?_⟩ <;> linarith)
  rw [p1] at g1
  rw [p2] at g2
  have le : lanczosError (1 / 2 ^ 22) 7 ≤ 1 / 2000 := by unfold lanczosError; norm_num
  exact ⟨b', px', h1, h2, gx, gy, g1.trans small, g2.trans small,
    c.c0.mono le, c.c1.mono le, c.c2.mono le, c.alpha.mono le⟩

end D10
