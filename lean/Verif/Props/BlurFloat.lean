import Verif.Lemmas.BellFloat
import Verif.Props.Convolution
import Verif.Props.Accuracy
import Verif.Props.Quant

/-!
# Blurring, sharpening and edge detection in binary32 (C95)

The program computes with 32-bit floating point numbers. Each theorem compares the result with the
exact value of the formula at the same pixels.
-/

namespace D10
open Spec
open Scalar (isNan lit)

section
variable [Libm b32]

/-! ## Weighted sums -/

omit [Libm b32] in
theorem nearest_inside {w : Nat} (hw : 0 < w) (v : Int) : nearest w v < w := by unfold nearest; omega

omit [Libm b32] in
/-- Weights that differ by `E` in total change a sum of channels by at most `E`. -/
theorem sum_change (W H : Nat) (a b c : Nat → Nat → ℝ) (E : ℝ)
    (hc : ∀ i j, i < W → j < H → 0 ≤ c i j ∧ c i j ≤ 1)
    (hE : ∑ j ∈ Finset.range H, ∑ i ∈ Finset.range W, |a i j - b i j| ≤ E) :
    |∑ j ∈ Finset.range H, ∑ i ∈ Finset.range W, a i j * c i j -
      ∑ j ∈ Finset.range H, ∑ i ∈ Finset.range W, b i j * c i j| ≤ E := by
  rw [← Finset.sum_sub_distrib]
  refine (Finset.abs_sum_le_sum_abs _ _).trans (le_trans (Finset.sum_le_sum fun j hj => ?_) hE)
  rw [← Finset.sum_sub_distrib]
  refine (Finset.abs_sum_le_sum_abs _ _).trans (Finset.sum_le_sum fun i hi => ?_)
  obtain ⟨h0, h1⟩ := hc i j (Finset.mem_range.1 hi) (Finset.mem_range.1 hj)
  rw [← sub_mul, abs_mul, abs_of_nonneg h0]
  exact mul_le_of_le_one_right (abs_nonneg _) h1

/-- One pixel of a convolution: every channel is within `3·W·H·2^m/2^25` of the exact sum. -/
theorem conv_close (m : ℕ) (hm : m ≤ 90) {w h : Nat} {px : Nat → Nat → Col F32}
    (hu : ∀ x y, x < w → y < h → UnitCol (px x y)) {W H : Nat} (hn : W * H ≤ 8388608)
    (wt : Nat → Nat → F32) (hw : ∀ i j, i < W → j < H → (wt i j).fin = true)
    (hS : ∑ j ∈ Finset.range H, ∑ i ∈ Finset.range W, |((wt i j).val : ℝ)| ≤ 2 ^ m)
    {x y : Nat} (hx : x < w) (hy : y < h) :
    CloseCol (3 * (W * H : ℕ) * 2 ^ m / 33554432) (conv w h px W H wt x y)
      (channelwise (exactSum w h px W H (fun i j => (wt i j).val) x y)) := by
  have hin : ∀ i j : Nat, UnitCol (px (nearest w (x + i - (W / 2 : Nat))) (nearest h (y + j - (H / 2 : Nat)))) :=
    fun i j => hu _ _ (nearest_inside (by omega) _) (nearest_inside (by omega) _)
  constructor
  · exact weighted_near m (by omega) W H wt _ hw hS (fun i j _ _ => (hin i j).c0) hn
  · exact weighted_near m (by omega) W H wt _ hw hS (fun i j _ _ => (hin i j).c1) hn
  · exact weighted_near m (by omega) W H wt _ hw hS (fun i j _ _ => (hin i j).c2) hn
  · exact weighted_near m (by omega) W H wt _ hw hS (fun i j _ _ => (hin i j).alpha) hn

/-- Convolution of a picture with channels in [0, 1] by finite weights whose sizes add up to at most
`2^m`: no channel overflows, and each is within `3·N²·2^m/2^25` of the exact weighted sum. -/
theorem C95_convolution (m : ℕ) (hm : m ≤ 90) {b : PixelBuffer (Col F32)} {w h px} (s : Shows b w h px)
    (hu : ∀ x y, x < w → y < h → UnitCol (px x y)) {k : Kernel F32} {N : Nat} (hN : N * N ≤ 8388608)
    {wt : Nat → Nat → F32} (hk : k.Holds N wt) (hw : ∀ i j, i < N → j < N → (wt i j).fin = true)
    (hS : ∑ j ∈ Finset.range N, ∑ i ∈ Finset.range N, |((wt i j).val : ℝ)| ≤ 2 ^ m) :
    ∃ b' px', b.apply_kernel N k = .ok b' ∧ Shows b' w h px' ∧ ∀ x y, x < w → y < h →
      CloseCol (3 * (N * N : ℕ) * 2 ^ m / 33554432) (px' x y)
        (channelwise (exactSum w h px N N (fun i j => (wt i j).val) x y)) := by
  have : N ≤ 1073741824 := by nlinarith
  obtain ⟨b', h1, h2⟩ := C10_apply_kernel s hk this
  exact ⟨b', _, h1, h2, fun x y hx hy => conv_close m hm hu hN wt hw hS hx hy⟩

/-- The same for dynamic kernels. -/
theorem C95_convolution_dyn (m : ℕ) (hm : m ≤ 90) {b : PixelBuffer (Col F32)} {w h px}
    (s : Shows b w h px) (hu : ∀ x y, x < w → y < h → UnitCol (px x y)) {k : KernelDyn F32} {W H : Nat}
    (hN : W * H ≤ 8388608) (hW : W ≤ 1073741824) (hH : H ≤ 1073741824)
    {wt : Nat → Nat → F32} (hk : k.Holds W H wt) (hw : ∀ i j, i < W → j < H → (wt i j).fin = true)
    (hS : ∑ j ∈ Finset.range H, ∑ i ∈ Finset.range W, |((wt i j).val : ℝ)| ≤ 2 ^ m) :
    ∃ b' px', b.apply_kernel_dyn k = .ok b' ∧ Shows b' w h px' ∧ ∀ x y, x < w → y < h →
      CloseCol (3 * (W * H : ℕ) * 2 ^ m / 33554432) (px' x y)
        (channelwise (exactSum w h px W H (fun i j => (wt i j).val) x y)) := by
  obtain ⟨b', h1, h2⟩ := C10_apply_kernel_dyn s hk (by omega) hW hH
  exact ⟨b', _, h1, h2, fun x y hx hy => conv_close m hm hu hN wt hw hS hx hy⟩

/-! ## Gaussian weights -/

omit [Libm b32] in
/-- Two tables of non-negative numbers close to each other have close shares. -/
theorem share_close {N : Nat} (X E : Nat → Nat → ℝ) (η T Y P : ℝ)
    (hX : ∀ i j, i < N → j < N → 0 ≤ X i j) (hT : 0 < T)
    (hsX : ∑ j ∈ Finset.range N, ∑ i ∈ Finset.range N, X i j = T)
    (hsE : ∑ j ∈ Finset.range N, ∑ i ∈ Finset.range N, E i j = Y) (hY : 1 ≤ Y)
    (hd : ∀ i j, i < N → j < N → |X i j * P - E i j| ≤ η) :
    ∑ j ∈ Finset.range N, ∑ i ∈ Finset.range N, |X i j / T - E i j / Y| ≤ 2 * (N * N : ℕ) * η := by
  have hη : ∑ j ∈ Finset.range N, ∑ i ∈ Finset.range N, |X i j * P - E i j| ≤ (N * N : ℕ) * η := by
    calc _ ≤ ∑ j ∈ Finset.range N, ∑ i ∈ Finset.range N, η :=
          Finset.sum_le_sum fun j hj => Finset.sum_le_sum fun i hi =>
            hd i j (Finset.mem_range.1 hi) (Finset.mem_range.1 hj)
      _ = _ := by simp; ring
  have hYT : |Y - T * P| ≤ (N * N : ℕ) * η := by
    rw [abs_sub_comm, ← hsE, ← hsX, Finset.sum_mul, ← Finset.sum_sub_distrib]
    refine (Finset.abs_sum_le_sum_abs _ _).trans (le_trans (Finset.sum_le_sum fun j hj => ?_) hη)
    rw [Finset.sum_mul, ← Finset.sum_sub_distrib]
    exact Finset.abs_sum_le_sum_abs _ _
  have hY0 : 0 < Y := by linarith
  have term : ∀ i j, i < N → j < N → |X i j / T - E i j / Y| ≤
      |X i j * P - E i j| * 1 + X i j * ((N * N : ℕ) * η / T) := by
    intro i j hi hj
    have e : X i j / T - E i j / Y = (X i j * P - E i j) * (1 / Y) + X i j * ((Y - T * P) / (T * Y)) := by
      field_simp; ring
    rw [e]
    refine (abs_add_le _ _).trans (add_le_add ?_ ?_)
    · rw [abs_mul]
      refine mul_le_mul_of_nonneg_left ?_ (abs_nonneg _)
      rw [abs_of_pos (by positivity), div_le_one hY0]; exact hY
    · rw [abs_mul, abs_of_nonneg (hX i j hi hj), abs_div, abs_of_pos (mul_pos hT hY0)]
      refine mul_le_mul_of_nonneg_left ?_ (hX i j hi hj)
      rw [div_le_div_iff₀ (mul_pos hT hY0) hT]
      have h1 : |Y - T * P| * T ≤ (N * N : ℕ) * η * T := by gcongr
      have h2 : (N * N : ℕ) * η * T ≤ (N * N : ℕ) * η * (T * Y) := by
        refine mul_le_mul_of_nonneg_left ?_ ((abs_nonneg _).trans hYT)
        nlinarith
      exact h1.trans h2
  calc _ ≤ ∑ j ∈ Finset.range N, ∑ i ∈ Finset.range N,
        (|X i j * P - E i j| * 1 + X i j * ((N * N : ℕ) * η / T)) :=
        Finset.sum_le_sum fun j hj => Finset.sum_le_sum fun i hi =>
          term i j (Finset.mem_range.1 hi) (Finset.mem_range.1 hj)
    _ = ∑ j ∈ Finset.range N, ∑ i ∈ Finset.range N, |X i j * P - E i j| + T * ((N * N : ℕ) * η / T) := by
        simp only [Finset.sum_add_distrib, ← Finset.sum_mul, hsX, mul_one]
    _ ≤ (N * N : ℕ) * η + (N * N : ℕ) * η := by
        refine add_le_add hη (le_of_eq ?_)
        field_simp
    _ = _ := by ring

/-- The weights computed for a blur: finite, not negative, in total within `3·N²/2^24` of one and
within `N²·(2δ + 39/2^24)` of the exact Gaussian weights. -/
theorem gauss_weights {δ : ℝ} (he : ExpWithin δ) (hδ : δ ≤ 1 / 2) (hs : SqrtWithin) {σ : F32}
    (h : SigmaOK σ) {N : Nat} (hN : 0 < N) (hN2 : N ≤ 2048) :
    (∀ i j, i < N → j < N → (gaussWeight N σ i j).fin = true ∧ 0 ≤ (gaussWeight N σ i j).val) ∧
    |∑ j ∈ Finset.range N, ∑ i ∈ Finset.range N, ((gaussWeight N σ i j).val : ℝ) - 1| ≤
      3 * (N * N : ℕ) / 16777216 ∧
    ∑ j ∈ Finset.range N, ∑ i ∈ Finset.range N, |((gaussWeight N σ i j).val : ℝ) - bellShare N σ.val i j| ≤
      (N * N : ℕ) * (2 * δ + 39 / 16777216) := by
  set P : F32 := (Scalar.lit 3.14159265358979323846264338327950288 : F32) *. ((Scalar.lit 2 : F32) *. σ *. σ)
    with hPdef
  obtain ⟨p1, p2, p3⟩ := bell_div h
  rw [← hPdef] at p1 p2 p3
  have hP : (0 : ℝ) < P.val := lt_of_lt_of_le (by positivity) p2
  have hn : N * N ≤ 4194304 := by nlinarith
  have hnr : ((N * N : ℕ) : ℝ) ≤ 4194304 := by exact_mod_cast hn
  let v : Nat → Nat → F32 := fun i j => bell σ ((i : Int) - (N / 2 : Nat)) ((j : Int) - (N / 2 : Nat))
  have off : ∀ i : Nat, i < N → |(i : Int) - (N / 2 : Nat)| ≤ 2048 := by
    intro i hi; rw [abs_le]; omega
  have hb : ∀ i j, i < N → j < N → (v i j).fin = true ∧ 0 ≤ (v i j).val ∧ ((v i j).val : ℝ) ≤ 2 ^ 80 ∧
      |((v i j).val : ℝ) * P.val - bellReal N σ.val i j| ≤ δ + 18 / 16777216 := by
    intro i j hi hj
    have := bell_near he hs h ((i : Int) - (N / 2 : Nat)) ((j : Int) - (N / 2 : Nat)) (off i hi) (off j hj)
    simp only [← hPdef] at this
    push_cast at this
    exact this
  -- the totals
  set T : ℝ := ∑ j ∈ Finset.range N, ∑ i ∈ Finset.range N, ((v i j).val : ℝ) with hT
  have hTq : (((∑ j ∈ Finset.range N, ∑ i ∈ Finset.range N, (v i j).val : ℚ)) : ℝ) = T := by
    rw [hT]; push_cast; rfl
  have hc : (0 : ℝ) < (v (N / 2) (N / 2)).val := by
    obtain ⟨-, -, -, h4⟩ := hb (N / 2) (N / 2) (by omega) (by omega)
    have e : bellReal N σ.val (N / 2) (N / 2) = 1 := by unfold bellReal; simp
    rw [e, abs_le] at h4
    by_contra hneg
    have := mul_nonpos_of_nonpos_of_nonneg (not_lt.1 hneg) hP.le
    linarith [h4.1]
  have hvn : ∀ i j, i < N → j < N → (0 : ℝ) ≤ (v i j).val := fun i j hi hj => by
    exact_mod_cast (hb i j hi hj).2.1
  have hT0 : 0 < T := by
    refine lt_of_lt_of_le hc ?_
    have hm : N / 2 ∈ Finset.range N := Finset.mem_range.2 (by omega)
    calc ((v (N / 2) (N / 2)).val : ℝ) ≤ ∑ i ∈ Finset.range N, ((v i (N / 2)).val : ℝ) :=
          Finset.single_le_sum (f := fun i => ((v i (N / 2)).val : ℝ))
            (fun k hk => hvn k _ (Finset.mem_range.1 hk) (by omega)) hm
      _ ≤ _ := Finset.single_le_sum (f := fun j => ∑ i ∈ Finset.range N, ((v i j).val : ℝ))
            (fun l hl => Finset.sum_nonneg fun k hk => hvn k l (Finset.mem_range.1 hk) (Finset.mem_range.1 hl)) hm
  have hTu : T ≤ 4194304 * 2 ^ 80 := by
    calc T ≤ ∑ j ∈ Finset.range N, ∑ i ∈ Finset.range N, (2 ^ 80 : ℝ) :=
          Finset.sum_le_sum fun j hj => Finset.sum_le_sum fun i hi =>
            (hb i j (Finset.mem_range.1 hi) (Finset.mem_range.1 hj)).2.2.1
      _ = (N * N : ℕ) * 2 ^ 80 := by simp; ring
      _ ≤ _ := by gcongr
  have hsw : ∑ j ∈ Finset.range N, ∑ i ∈ Finset.range N, (v j i).val =
      ∑ j ∈ Finset.range N, ∑ i ∈ Finset.range N, (v i j).val := Finset.sum_comm
  have hup := pow_up (show N * N ≤ 8388608 by omega)
  obtain ⟨t1, t2, t3⟩ := total_rel N N (fun i j => v j i)
    (fun i j hi hj => ⟨(hb j i hj hi).1, (hb j i hj hi).2.1⟩)
    (by
      rw [hsw]
      have : (((∑ j ∈ Finset.range N, ∑ i ∈ Finset.range N, (v i j).val) * (1 + 1 / 16777216) ^ (N * N) : ℚ) : ℝ) ≤
          ((2 ^ 127 : ℚ) : ℝ) := by
        rw [Rat.cast_mul, hTq]
        push_cast
        calc T * (1 + 1 / 16777216) ^ (N * N) ≤ (4194304 * 2 ^ 80) * 2 := by
              apply mul_le_mul hTu _ (by positivity) (by positivity)
              refine hup.trans ?_
              linarith
          _ ≤ _ := by norm_num
      have ep : pow2 127 = 2 ^ 127 := by norm_num [pow2_eq]
      rw [ep]
      exact_mod_cast this)
  rw [hsw] at t2 t3
  have hSe : bellSum N σ = total N N (fun i j => v j i) := rfl
  rw [← hSe] at t1 t2 t3
  have t2' : T * (1 - 1 / 16777216) ^ (N * N) ≤ ((bellSum N σ).val : ℝ) := by
    have := (Rat.cast_le (K := ℝ)).2 t2
    rw [Rat.cast_mul, hTq] at this
    push_cast at this
    exact this
  have t3' : ((bellSum N σ).val : ℝ) ≤ T * (1 + 1 / 16777216) ^ (N * N) := by
    have := (Rat.cast_le (K := ℝ)).2 t3
    rw [Rat.cast_mul, hTq] at this
    push_cast at this
    exact this
  obtain ⟨w1, w2⟩ := shares v (bellSum N σ) T (fun i j hi hj => ⟨(hb i j hi hj).1, (hb i j hi hj).2.1⟩)
    rfl hT0 t1 rfl hn t2' t3'
  have hwe : ∀ i j, gaussWeight N σ i j = (v i j /. bellSum N σ) := fun i j => rfl
  refine ⟨fun i j hi hj => by rw [hwe]; exact w1 i j hi hj, ?_, ?_⟩
  · have hone : ∑ j ∈ Finset.range N, ∑ i ∈ Finset.range N, ((v i j).val : ℝ) / T = 1 := by
      simp only [← Finset.sum_div]
      exact div_self hT0.ne'
    rw [← hone, ← Finset.sum_sub_distrib]
    refine (Finset.abs_sum_le_sum_abs _ _).trans (le_trans (Finset.sum_le_sum fun j hj => ?_) w2)
    rw [← Finset.sum_sub_distrib]
    exact Finset.abs_sum_le_sum_abs _ _
  · have hY1 : 1 ≤ ∑ j ∈ Finset.range N, ∑ i ∈ Finset.range N, bellReal N σ.val i j := by
      have e : bellReal N σ.val (N / 2) (N / 2) = 1 := by unfold bellReal; simp
      have hm : N / 2 ∈ Finset.range N := Finset.mem_range.2 (by omega)
      have hp : ∀ i j, 0 ≤ bellReal N σ.val i j := fun i j => (Real.exp_pos _).le
      calc (1 : ℝ) = bellReal N σ.val (N / 2) (N / 2) := e.symm
        _ ≤ ∑ i ∈ Finset.range N, bellReal N σ.val i (N / 2) :=
            Finset.single_le_sum (f := fun i => bellReal N σ.val i (N / 2)) (fun k _ => hp _ _) hm
        _ ≤ _ := Finset.single_le_sum (f := fun j => ∑ i ∈ Finset.range N, bellReal N σ.val i j)
            (fun l _ => Finset.sum_nonneg fun k _ => hp _ _) hm
    have sc := share_close (fun i j => ((v i j).val : ℝ)) (bellReal N σ.val) (δ + 18 / 16777216) T
      (∑ j ∈ Finset.range N, ∑ i ∈ Finset.range N, bellReal N σ.val i j) P.val hvn hT0 rfl rfl hY1
      (fun i j hi hj => (hb i j hi hj).2.2.2)
    calc _ ≤ ∑ j ∈ Finset.range N, ∑ i ∈ Finset.range N,
          (|((v i j /. bellSum N σ).val : ℝ) - (v i j).val / T| +
            |((v i j).val : ℝ) / T - bellShare N σ.val i j|) :=
          Finset.sum_le_sum fun j _ => Finset.sum_le_sum fun i _ => by
            rw [hwe]
            exact abs_sub_le _ _ _
      _ = _ := by simp only [Finset.sum_add_distrib]; rfl
      _ ≤ 3 * (N * N : ℕ) / 16777216 + 2 * (N * N : ℕ) * (δ + 18 / 16777216) := add_le_add w2 sc
      _ = _ := by ring

/-! ## Blurring -/

/-- The default width for the radii 1 to 1023 is half the radius, exactly, and qualifies. -/
theorem C95_default_sigma (r : Nat) (h1 : 1 ≤ r) (hr : r ≤ 1023) :
    SigmaOK (get_default_sigma (2 * r + 1) : F32) ∧ ((get_default_sigma (2 * r + 1) : F32).val : ℝ) = r / 2 := by
  have a := FP.lit32 ((2 * r + 1 : Nat) : Int) (by rw [abs_of_nonneg (by omega)]; norm_num; omega)
  have c := FP.lit32 4 (by norm_num)
  have c1 : (Scalar.lit 4 : F32).fin = true ∧ (Scalar.lit 4 : F32).val = 4 := by
    have h : (FP.ofRat b32 false 4).fin = true ∧ (FP.ofRat b32 false 4).val = 4 := by simpa using c
    exact h
  have a1 : (Scalar.ofNat (2 * r + 1) : F32).fin = true ∧ (Scalar.ofNat (2 * r + 1) : F32).val = 2 * r + 1 := by
    have h : (FP.ofRat b32 false ((2 * r + 1 : Nat) : ℚ)).fin = true ∧
        (FP.ofRat b32 false ((2 * r + 1 : Nat) : ℚ)).val = 2 * r + 1 := by
      have := a
      push_cast at this ⊢
      exact this
    exact h
  have l1 : (Scalar.lit 1 : F32).fin = true ∧ (Scalar.lit 1 : F32).val = 1 := FP.lit1
  have d : ((Scalar.ofNat (2 * r + 1) : F32) -. Scalar.lit 1).fin = true ∧
      ((Scalar.ofNat (2 * r + 1) : F32) -. Scalar.lit 1).val = ((2 * r : Nat) : Int) := by
    have e : ((Scalar.ofNat (2 * r + 1) : F32) -. Scalar.lit 1) =
      FP.sub (Scalar.ofNat (2 * r + 1) : F32) (Scalar.lit 1) := rfl
    rw [e, FP.sub_fin a1.1 l1.1, a1.2, l1.2]
    have e2 : ((2 * r + 1 : ℚ) - 1) = (((2 * r : Nat) : Int) : ℚ) := by push_cast; ring
    rw [e2]
    obtain ⟨r1, r2⟩ := FP.int_finite (f := b32) ((2 * r : Nat) : Int)
      (by rw [abs_of_nonneg (by omega)]; norm_num; omega)
    exact FP.ofRat_rep r1 r2
  have rep : IsRep b32 ((r : ℚ) / 2) :=
    ⟨r, -1, by
      rw [abs_of_nonneg (by omega)]
      have : ((2 : Int) ^ b32.prec) = 16777216 := by norm_num
      rw [this]; omega, by decide, by
      have : pow2 (-1) = 1 / 2 := by norm_num [pow2_eq]
      rw [this]; push_cast; ring⟩
  have v : (get_default_sigma (2 * r + 1) : F32).fin = true ∧
      (get_default_sigma (2 * r + 1) : F32).val = (r : ℚ) / 2 := by
    have e : (get_default_sigma (2 * r + 1) : F32) =
      FP.div ((Scalar.ofNat (2 * r + 1) : F32) -. Scalar.lit 1) (Scalar.lit 4) := rfl
    rw [e, FP.div_fin d.1 c1.1 (by rw [c1.2]; norm_num), d.2, c1.2]
    have e2 : ((((2 * r : Nat) : Int) : ℚ) / 4) = (r : ℚ) / 2 := by push_cast; ring
    rw [e2]
    apply FP.ofRat_rep rep
    rw [FP.pow2_b32, abs_of_nonneg (by positivity)]
    have : (r : ℚ) ≤ 1023 := by exact_mod_cast hr
    linarith
  have hv : ((get_default_sigma (2 * r + 1) : F32).val : ℝ) = r / 2 := by rw [v.2]; push_cast; ring
  have b1 : (1 : ℝ) ≤ r := by exact_mod_cast h1
  have b2 : (r : ℝ) ≤ 1023 := by exact_mod_cast hr
  refine ⟨⟨v.1, ?_, ?_⟩, hv⟩
  · rw [hv]
    have : (1 : ℝ) / 2 ^ 40 ≤ 1 / 2 := by norm_num
    linarith
  · rw [hv]
    have : (1023 : ℝ) / 2 ≤ 2 ^ 40 := by norm_num
    linarith

omit [Libm b32] in
theorem Spec.CloseCol.shift {e d : ℝ} {c : Col F32} {f g : (Col F32 → F32) → ℝ}
    (h : CloseCol e c (channelwise f))
    (hd : ∀ ch, ch = Col.c0 ∨ ch = Col.c1 ∨ ch = Col.c2 ∨ ch = Col.alpha → |f ch - g ch| ≤ d) :
    CloseCol (e + d) c (channelwise g) := by
  have one : ∀ {x : F32} {a b : ℝ}, Close x a e → |a - b| ≤ d → Close x b (e + d) := fun hx hab =>
    ⟨hx.fin, (abs_sub_le _ _ _).trans (add_le_add hx.err hab)⟩
  exact ⟨one h.c0 (hd _ (by simp)), one h.c1 (hd _ (by simp)), one h.c2 (hd _ (by simp)),
    one h.alpha (hd _ (by simp))⟩

omit [Libm b32] in
theorem Spec.UnitCol.chan {c : Col F32} (h : UnitCol c) {ch : Col F32 → F32}
    (hc : ch = Col.c0 ∨ ch = Col.c1 ∨ ch = Col.c2 ∨ ch = Col.alpha) :
    (ch c).fin = true ∧ 0 ≤ (ch c).val ∧ (ch c).val ≤ 1 := by
  rcases hc with rfl | rfl | rfl | rfl
  · exact h.c0
  · exact h.c1
  · exact h.c2
  · exact h.alpha

omit [Libm b32] in
theorem Spec.UnitCol.real {c : Col F32} (h : UnitCol c) {ch : Col F32 → F32}
    (hc : ch = Col.c0 ∨ ch = Col.c1 ∨ ch = Col.c2 ∨ ch = Col.alpha) :
    (0 : ℝ) ≤ (ch c).val ∧ ((ch c).val : ℝ) ≤ 1 := by
  obtain ⟨_, h1, h2⟩ := h.chan hc
  exact ⟨by exact_mod_cast h1, by exact_mod_cast h2⟩

/-- The computed weights of a blur add up to less than 2. -/
theorem gauss_total {δ : ℝ} (he : ExpWithin δ) (hδ : δ ≤ 1 / 2) (hs : SqrtWithin) {σ : F32}
    (h : SigmaOK σ) {N : Nat} (hN : 0 < N) (hN2 : N ≤ 2048) :
    ∑ j ∈ Finset.range N, ∑ i ∈ Finset.range N, |((gaussWeight N σ i j).val : ℝ)| ≤ 2 ^ 1 := by
  obtain ⟨g1, g2, -⟩ := gauss_weights he hδ hs h hN hN2
  have hn : N * N ≤ 4194304 := by nlinarith
  have hnr : ((N * N : ℕ) : ℝ) ≤ 4194304 := by exact_mod_cast hn
  have e : ∑ j ∈ Finset.range N, ∑ i ∈ Finset.range N, |((gaussWeight N σ i j).val : ℝ)| =
      ∑ j ∈ Finset.range N, ∑ i ∈ Finset.range N, ((gaussWeight N σ i j).val : ℝ) :=
    Finset.sum_congr rfl fun j hj => Finset.sum_congr rfl fun i hi => by
      apply abs_of_nonneg
      exact_mod_cast (g1 i j (Finset.mem_range.1 hi) (Finset.mem_range.1 hj)).2
  rw [e]
  rw [abs_le] at g2
  have := g2.2
  norm_num
  linarith

/-- One pixel of the blur. -/
theorem blur_pixel {δ : ℝ} (he : ExpWithin δ) (hδ : δ ≤ 1 / 2) (hs : SqrtWithin) {σ : F32}
    (h : SigmaOK σ) {N : Nat} (hN : 0 < N) (hN2 : N ≤ 2048) {w hh : Nat} {px : Nat → Nat → Col F32}
    (hu : ∀ x y, x < w → y < hh → UnitCol (px x y)) {x y : Nat} (hx : x < w) (hy : y < hh) :
    CloseCol ((N * N : ℕ) * (2 * δ + 42 / 16777216)) (conv w hh px N N (gaussWeight N σ) x y)
      (channelwise (exactSum w hh px N N (bellShare N σ.val) x y)) := by
  obtain ⟨g1, -, g3⟩ := gauss_weights he hδ hs h hN hN2
  have hn : N * N ≤ 4194304 := by nlinarith
  have cc := conv_close 1 (by norm_num) hu (W := N) (H := N) (by omega) (gaussWeight N σ)
    (fun i j hi hj => (g1 i j hi hj).1) (gauss_total he hδ hs h hN hN2) hx hy
  have := cc.shift (g := exactSum w hh px N N (bellShare N σ.val) x y) (d := (N * N : ℕ) * (2 * δ + 39 / 16777216))
    (fun ch hch => by
      unfold exactSum
      exact sum_change N N _ _ _ _ (fun i j _ _ =>
        (hu _ _ (nearest_inside (by omega) _) (nearest_inside (by omega) _)).real hch) g3)
  have e : 3 * (N * N : ℕ) * 2 ^ 1 / 33554432 + (N * N : ℕ) * (2 * δ + 39 / 16777216) =
      ((N * N : ℕ) : ℝ) * (2 * δ + 42 / 16777216) := by ring
  rwa [e] at this

/-- **Blurring.** On a picture with channels in [0, 1], for every radius up to 1023 and every width
`σ` that does not leave the range of binary32, each channel of the blurred picture is within
`n·(2δ + 42/2^24)` of the exact Gaussian mean of the neighbourhood, `n` being the number of pixels in
it and `δ` the error of the platform's `exp`. -/
theorem C95_gaussian_blur {δ : ℝ} (he : ExpWithin δ) (hδ : δ ≤ 1 / 2) (hs : SqrtWithin)
    {b : PixelBuffer (Col F32)} {w h px} (s : Shows b w h px)
    (hu : ∀ x y, x < w → y < h → UnitCol (px x y)) (r : Nat) (hr : r ≤ 1023) (sigma : Option F32)
    (hσ : SigmaOK (sigma.getD (get_default_sigma (2 * r + 1)))) :
    ∃ b' px', gaussian_blur b r sigma = .ok b' ∧ Shows b' w h px' ∧ ∀ x y, x < w → y < h →
      CloseCol (((2 * r + 1) * (2 * r + 1) : ℕ) * (2 * δ + 42 / 16777216)) (px' x y)
        (channelwise (exactSum w h px (2 * r + 1) (2 * r + 1)
          (bellShare (2 * r + 1) (sigma.getD (get_default_sigma (2 * r + 1))).val) x y)) := by
  obtain ⟨b', h1, h2⟩ := (C12_gaussian_blur s r sigma).1 (by omega)
  exact ⟨b', _, h1, h2, fun x y hx hy => blur_pixel he hδ hs hσ (by omega) (by omega) hu hx hy⟩

/-- **Nothing is lost or invented.** Each channel of the blurred picture stays within `n·12/2^25` of
the range `[lo, hi]` of that channel in the picture: in particular blurring a uniform area changes it
by at most that much. This does not depend on the accuracy of `exp`. -/
theorem C95_blur_range {δ : ℝ} (he : ExpWithin δ) (hδ : δ ≤ 1 / 2) (hs : SqrtWithin)
    {b : PixelBuffer (Col F32)} {w h px} (s : Shows b w h px)
    (hu : ∀ x y, x < w → y < h → UnitCol (px x y)) (r : Nat) (hr : r ≤ 1023) (sigma : Option F32)
    (hσ : SigmaOK (sigma.getD (get_default_sigma (2 * r + 1))))
    (ch : Col F32 → F32) (hch : ch = Col.c0 ∨ ch = Col.c1 ∨ ch = Col.c2 ∨ ch = Col.alpha) (lo hi : ℝ)
    (hlo : ∀ x y, x < w → y < h → lo ≤ (ch (px x y)).val)
    (hhi : ∀ x y, x < w → y < h → (ch (px x y)).val ≤ hi) :
    ∃ b' px', gaussian_blur b r sigma = .ok b' ∧ Shows b' w h px' ∧ ∀ x y, x < w → y < h →
      (ch (px' x y)).fin = true ∧
      lo - ((2 * r + 1) * (2 * r + 1) : ℕ) * 12 / 33554432 ≤ (ch (px' x y)).val ∧
      (ch (px' x y)).val ≤ hi + ((2 * r + 1) * (2 * r + 1) : ℕ) * 12 / 33554432 := by
  obtain ⟨b', h1, h2⟩ := (C12_gaussian_blur s r sigma).1 (by omega)
  refine ⟨b', _, h1, h2, fun x y hx hy => ?_⟩
  generalize hN : 2 * r + 1 = N at *
  generalize sigma.getD (get_default_sigma N) = σ at *
  have hN0 : 0 < N := by omega
  have hN2 : N ≤ 2048 := by omega
  obtain ⟨g1, g2, -⟩ := gauss_weights he hδ hs hσ hN0 hN2
  have hn : N * N ≤ 4194304 := by nlinarith
  have hnr : ((N * N : ℕ) : ℝ) ≤ 4194304 := by exact_mod_cast hn
  have cc := conv_close 1 (by norm_num) hu (W := N) (H := N) (by omega) (gaussWeight N σ)
    (fun i j hi hj => (g1 i j hi hj).1) (gauss_total he hδ hs hσ hN0 hN2) hx hy
  have one : Close (ch (conv w h px N N (gaussWeight N σ) x y))
      (exactSum w h px N N (fun i j => (gaussWeight N σ i j).val) x y ch)
      (3 * (N * N : ℕ) * 2 ^ 1 / 33554432) := by
    rcases hch with rfl | rfl | rfl | rfl
    · exact cc.c0
    · exact cc.c1
    · exact cc.c2
    · exact cc.alpha
  refine ⟨one.fin, ?_⟩
  -- the exact sum is between S·lo and S·hi for the total S of the weights
  generalize hSd : ∑ j ∈ Finset.range N, ∑ i ∈ Finset.range N, ((gaussWeight N σ i j).val : ℝ) = S at g2
  have hin : ∀ i j : Nat, UnitCol (px (nearest w (x + i - (N / 2 : Nat))) (nearest h (y + j - (N / 2 : Nat)))) ∧
      lo ≤ (ch (px (nearest w (x + i - (N / 2 : Nat))) (nearest h (y + j - (N / 2 : Nat))))).val ∧
      (ch (px (nearest w (x + i - (N / 2 : Nat))) (nearest h (y + j - (N / 2 : Nat))))).val ≤ hi := fun i j =>
    ⟨hu _ _ (nearest_inside (by omega) _) (nearest_inside (by omega) _),
      hlo _ _ (nearest_inside (by omega) _) (nearest_inside (by omega) _),
      hhi _ _ (nearest_inside (by omega) _) (nearest_inside (by omega) _)⟩
  have hlu : lo ≤ 1 ∧ 0 ≤ hi ∧ lo ≤ hi := by
    obtain ⟨a1, a2, a3⟩ := hin 0 0
    obtain ⟨c1, c2⟩ := a1.real hch
    exact ⟨by linarith, by linarith, by linarith⟩
  have low : ∀ l, (∀ i j : Nat, l ≤ ((ch (px (nearest w (x + i - (N / 2 : Nat))) (nearest h (y + j - (N / 2 : Nat))))).val : ℝ)) →
      S * l ≤ exactSum w h px N N (fun i j => (gaussWeight N σ i j).val) x y ch := by
    intro l hl
    rw [← hSd, Finset.sum_mul]
    refine Finset.sum_le_sum fun j hj => ?_
    rw [Finset.sum_mul]
    refine Finset.sum_le_sum fun i hi => mul_le_mul_of_nonneg_left (hl i j) ?_
    show (0 : ℝ) ≤ ((gaussWeight N σ i j).val : ℝ)
    exact_mod_cast (g1 i j (Finset.mem_range.1 hi) (Finset.mem_range.1 hj)).2
  have high : ∀ l, (∀ i j : Nat, ((ch (px (nearest w (x + i - (N / 2 : Nat))) (nearest h (y + j - (N / 2 : Nat))))).val : ℝ) ≤ l) →
      exactSum w h px N N (fun i j => (gaussWeight N σ i j).val) x y ch ≤ S * l := by
    intro l hl
    rw [← hSd, Finset.sum_mul]
    refine Finset.sum_le_sum fun j hj => ?_
    rw [Finset.sum_mul]
    refine Finset.sum_le_sum fun i hi => mul_le_mul_of_nonneg_left (hl i j) ?_
    show (0 : ℝ) ≤ ((gaussWeight N σ i j).val : ℝ)
    exact_mod_cast (g1 i j (Finset.mem_range.1 hi) (Finset.mem_range.1 hj)).2
  have err := one.err
  rw [abs_le] at err g2
  have L1 := low (max lo 0) fun i j => max_le (hin i j).2.1 ((hin i j).1.real hch).1
  have H1 := high (min hi 1) fun i j => le_min (hin i j).2.2 ((hin i j).1.real hch).2
  have hnn : (0 : ℝ) ≤ ((N * N : ℕ) : ℝ) := by positivity
  constructor
  · have a1 : lo ≤ max lo 0 := le_max_left _ _
    have a2 : 0 ≤ max lo 0 := le_max_right _ _
    have a3 : max lo 0 ≤ 1 := max_le hlu.1 (by norm_num)
    nlinarith
  · have a1 : min hi 1 ≤ hi := min_le_left _ _
    have a2 : min hi 1 ≤ 1 := min_le_right _ _
    have a3 : 0 ≤ min hi 1 := le_min hlu.2.1 (by norm_num)
    nlinarith

/-- Converted to 8 bits, a channel close to a level is that level or a neighbour. -/
theorem level_close {v : Nat} (hv : v < 256) {x : F32} (hx : x.fin = true)
    (h : |(x.val : ℝ) - (from_u8 v : F32).val| ≤ 1 / 512) : as_u8 x ≤ v + 1 ∧ v ≤ as_u8 x + 1 := by
  obtain ⟨f1, f2⟩ := from_u8_fin hv
  have hvq : (v : ℚ) ≤ 255 := by
    have : v ≤ 255 := by omega
    exact_mod_cast this
  have hq : |(v : ℚ) / 255| ≤ 1 := by
    rw [abs_of_nonneg (by positivity), div_le_one (by norm_num)]; exact hvq
  obtain ⟨-, -, u3, -⟩ := FP.ofRat_unit (s := false) hq
  have hle : |(x.val : ℝ) - (v : ℝ) / 255| ≤ 1 / 500 := by
    have u3' : |(((rn b32 ((v : ℚ) / 255)) : ℚ) : ℝ) - (v : ℝ) / 255| ≤ 1 / 33554432 := by
      have : ((|rn b32 ((v : ℚ) / 255) - (v : ℚ) / 255| : ℚ) : ℝ) ≤ ((1 / 33554432 : ℚ) : ℝ) := by
        exact_mod_cast u3
      push_cast at this
      exact this
    rw [f2] at h
    refine (abs_sub_le _ _ _).trans ((add_le_add h u3').trans (by norm_num))
  have hx255 : |(x.val * 255 : ℚ) - v| ≤ 51 / 100 := by
    have : |((x.val * 255 : ℚ) : ℝ) - v| ≤ 51 / 100 := by
      push_cast
      have e : (x.val : ℝ) * 255 - v = (x.val - (v : ℝ) / 255) * 255 := by ring
      rw [e, abs_mul, abs_of_pos (by norm_num : (0 : ℝ) < 255)]
      calc _ ≤ (1 / 500 : ℝ) * 255 := by gcongr
        _ ≤ _ := by norm_num
    have t : ((|(x.val * 255 : ℚ) - v| : ℚ) : ℝ) ≤ ((51 / 100 : ℚ) : ℝ) := by push_cast at this ⊢; exact this
    exact_mod_cast t
  have hb : |x.val * 255| ≤ pow2 8 := by
    have : pow2 8 = 256 := rfl
    rw [this]
    have := abs_add_le (x.val * 255 - v) v
    rw [sub_add_cancel, abs_of_nonneg (show (0 : ℚ) ≤ v by positivity)] at this
    linarith
  have er := rn_err_le (f := b32) (k := 8) (by decide) hb
  have hp : pow2 (8 - (b32.prec : ℤ)) / 2 = 1 / 131072 := by norm_num [pow2_eq]
  rw [hp] at er
  have tot : |rn b32 (x.val * 255) - v| ≤ 52 / 100 :=
    (abs_sub_le _ _ _).trans ((add_le_add er hx255).trans (by norm_num))
  rw [abs_le] at tot
  rw [as_u8_fin hx]
  have up : ⌊rn b32 (x.val * 255)⌋₊ < v + 1 := by
    rw [Nat.floor_lt' (by omega)]
    push_cast; linarith
  have low : v ≤ ⌊rn b32 (x.val * 255)⌋₊ + 1 := by
    by_contra hc
    have h1 : ⌊rn b32 (x.val * 255)⌋₊ < v - 1 := by omega
    have h2 : rn b32 (x.val * 255) < ((v - 1 : Nat) : ℚ) := by
      rcases Nat.eq_zero_or_pos (v - 1) with h0 | h0
      · omega
      · exact (Nat.floor_lt' (by omega)).1 h1
    rw [Nat.cast_sub (by omega)] at h2
    push_cast at h2
    linarith
  constructor <;> omega

/-- **A uniform 8-bit picture.** Blurred with any radius up to 36 and written with 8 bits again, no
channel is off by more than one level. -/
theorem C95_blur_flat {δ : ℝ} (he : ExpWithin δ) (hδ : δ ≤ 1 / 2) (hs : SqrtWithin)
    {b : PixelBuffer (Col F32)} {w h : Nat} {c0 c1 c2 a : Nat} (h0 : c0 < 256) (h1 : c1 < 256)
    (h2 : c2 < 256) (h3 : a < 256)
    (s : Shows b w h fun _ _ => (⟨from_u8 c0, from_u8 c1, from_u8 c2, from_u8 a⟩ : Col F32))
    (r : Nat) (hr : r ≤ 36) (sigma : Option F32)
    (hσ : SigmaOK (sigma.getD (get_default_sigma (2 * r + 1)))) :
    ∃ b' px', gaussian_blur b r sigma = .ok b' ∧ Shows b' w h px' ∧ ∀ x y, x < w → y < h →
      (as_u8 (px' x y).c0 ≤ c0 + 1 ∧ c0 ≤ as_u8 (px' x y).c0 + 1) ∧
      (as_u8 (px' x y).c1 ≤ c1 + 1 ∧ c1 ≤ as_u8 (px' x y).c1 + 1) ∧
      (as_u8 (px' x y).c2 ≤ c2 + 1 ∧ c2 ≤ as_u8 (px' x y).c2 + 1) ∧
      (as_u8 (px' x y).alpha ≤ a + 1 ∧ a ≤ as_u8 (px' x y).alpha + 1) := by
  have unit : ∀ v : Nat, v < 256 → (from_u8 v : F32).fin = true ∧ 0 ≤ (from_u8 v : F32).val ∧ (from_u8 v : F32).val ≤ 1 := by
    intro v hv
    obtain ⟨f1, f2⟩ := from_u8_fin hv
    have hvq : (v : ℚ) ≤ 255 := by
      have : v ≤ 255 := by omega
      exact_mod_cast this
    have hq : |(v : ℚ) / 255| ≤ 1 := by
      rw [abs_of_nonneg (by positivity), div_le_one (by norm_num)]; exact hvq
    obtain ⟨-, -, -, u4⟩ := FP.ofRat_unit (s := false) hq
    have n := rn_nonneg (f := b32) (q := (v : ℚ) / 255) (by positivity)
    rw [abs_of_nonneg n] at u4
    exact ⟨f1, by rw [f2]; exact n, by rw [f2]; exact u4⟩
  have hu : ∀ x y, x < w → y < h → UnitCol (⟨from_u8 c0, from_u8 c1, from_u8 c2, from_u8 a⟩ : Col F32) :=
    fun _ _ _ _ => ⟨unit _ h0, unit _ h1, unit _ h2, unit _ h3⟩
  have size : ((2 * r + 1) * (2 * r + 1) : ℕ) * 12 / 33554432 ≤ (1 / 512 : ℝ) := by
    have : (2 * r + 1) * (2 * r + 1) ≤ 5329 := Nat.mul_le_mul (show 2 * r + 1 ≤ 73 by omega) (show 2 * r + 1 ≤ 73 by omega)
    have : (((2 * r + 1) * (2 * r + 1) : ℕ) : ℝ) ≤ 5329 := by exact_mod_cast this
    linarith
  obtain ⟨b', g1, g2⟩ := (C12_gaussian_blur s r sigma).1 (by omega)
  have one : ∀ (ch : Col F32 → F32), (ch = Col.c0 ∨ ch = Col.c1 ∨ ch = Col.c2 ∨ ch = Col.alpha) → ∀ v : Nat, v < 256 →
      ch (⟨from_u8 c0, from_u8 c1, from_u8 c2, from_u8 a⟩ : Col F32) = from_u8 v → ∀ x y, x < w → y < h →
      as_u8 (ch (conv w h (fun _ _ => (⟨from_u8 c0, from_u8 c1, from_u8 c2, from_u8 a⟩ : Col F32)) (2 * r + 1)
        (2 * r + 1) (gaussWeight (2 * r + 1) (sigma.getD (get_default_sigma (2 * r + 1)))) x y)) ≤ v + 1 ∧
      v ≤ as_u8 (ch (conv w h (fun _ _ => (⟨from_u8 c0, from_u8 c1, from_u8 c2, from_u8 a⟩ : Col F32)) (2 * r + 1)
        (2 * r + 1) (gaussWeight (2 * r + 1) (sigma.getD (get_default_sigma (2 * r + 1)))) x y)) + 1 := by
    intro ch hch v hv hcv x y hx hy
    obtain ⟨b2, px', k1, k2, k3⟩ := C95_blur_range he hδ hs s hu r (by omega) sigma hσ ch hch
      (from_u8 v : F32).val (from_u8 v : F32).val (fun _ _ _ _ => le_of_eq (by rw [← hcv])) (fun _ _ _ _ => le_of_eq (by rw [← hcv]))
    rw [g1] at k1
    cases k1
    have e : px' x y = conv w h (fun _ _ => (⟨from_u8 c0, from_u8 c1, from_u8 c2, from_u8 a⟩ : Col F32)) (2 * r + 1)
        (2 * r + 1) (gaussWeight (2 * r + 1) (sigma.getD (get_default_sigma (2 * r + 1)))) x y := by
      have q1 := k2.getElem? hx hy
      rw [g2.getElem? hx hy] at q1
      exact (Option.some.inj q1).symm
    obtain ⟨m1, m2, m3⟩ := k3 x y hx hy
    rw [e] at m1 m2 m3
    apply level_close hv m1
    rw [abs_le]
    constructor <;> linarith
  exact ⟨b', _, g1, g2, fun x y hx hy => ⟨one _ (by simp) _ h0 rfl x y hx hy, one _ (by simp) _ h1 rfl x y hx hy,
    one _ (by simp) _ h2 rfl x y hx hy, one _ (by simp) _ h3 rfl x y hx hy⟩⟩

/-! ## Sharpening -/

/-- **Sharpening.** For factors up to `2^m` in size each channel of the result is within
`2^m·(n·(2δ + 42/2^24) + 8/2^24)` of the exact `c + (c - mean)·factor`, clamped to [0, 1]. -/
theorem C95_unsharp {δ : ℝ} (he : ExpWithin δ) (hδ : δ ≤ 1 / 2) (hs : SqrtWithin)
    {b : PixelBuffer (Col F32)} {w h px} (s : Shows b w h px)
    (hu : ∀ x y, x < w → y < h → UnitCol (px x y)) (r : Nat) (hr : r ≤ 1023) (sigma : Option F32)
    (hσ : SigmaOK (sigma.getD (get_default_sigma (2 * r + 1)))) (factor : F32) (m : ℕ) (hm : m ≤ 50)
    (hf : factor.fin = true) (hf2 : |(factor.val : ℝ)| ≤ 2 ^ m)
    (hsmall : ((2 * r + 1) * (2 * r + 1) : ℕ) * (2 * δ + 42 / 16777216) ≤ (1 / 2 : ℝ)) :
    ∃ b' px', unsharp b r factor sigma = .ok b' ∧ Shows b' w h px' ∧ ∀ x y, x < w → y < h →
      CloseCol (2 ^ m * (((2 * r + 1) * (2 * r + 1) : ℕ) * (2 * δ + 42 / 16777216) + 8 / 16777216)) (px' x y)
        (channelwise fun ch => max 0 (min 1 ((ch (px x y)).val + ((ch (px x y)).val -
          exactSum w h px (2 * r + 1) (2 * r + 1)
            (bellShare (2 * r + 1) (sigma.getD (get_default_sigma (2 * r + 1))).val) x y ch) * factor.val))) := by
  obtain ⟨b', bl, g1, g2, blurred, g3, g4⟩ := C46_unsharp s r (by omega) factor sigma
  obtain ⟨b2, px2, k1, k2, k3⟩ := C95_gaussian_blur he hδ hs s hu r hr sigma hσ
  rw [g1] at k1
  cases k1
  refine ⟨b', _, g2, g4, fun x y hx hy => ?_⟩
  have e : px2 x y = blurred x y := by
    have q1 := k2.getElem? hx hy
    rw [g3.getElem? hx hy] at q1
    exact (Option.some.inj q1).symm
  have cl := k3 x y hx hy
  rw [e] at cl
  set n : ℝ := (((2 * r + 1) * (2 * r + 1) : ℕ) : ℝ) * (2 * δ + 42 / 16777216) with hnd
  have shares1 : ∀ ch, ch = Col.c0 ∨ ch = Col.c1 ∨ ch = Col.c2 ∨ ch = Col.alpha →
      0 ≤ exactSum w h px (2 * r + 1) (2 * r + 1)
        (bellShare (2 * r + 1) (sigma.getD (get_default_sigma (2 * r + 1))).val) x y ch ∧
      exactSum w h px (2 * r + 1) (2 * r + 1)
        (bellShare (2 * r + 1) (sigma.getD (get_default_sigma (2 * r + 1))).val) x y ch ≤ 1 := by
    intro ch hch
    have hpos : ∀ k l, 0 < bellReal (2 * r + 1) (sigma.getD (get_default_sigma (2 * r + 1))).val k l :=
      fun k l => Real.exp_pos _
    have hY : 0 < ∑ l ∈ Finset.range (2 * r + 1), ∑ k ∈ Finset.range (2 * r + 1),
        bellReal (2 * r + 1) (sigma.getD (get_default_sigma (2 * r + 1))).val k l :=
      Finset.sum_pos (fun l _ => Finset.sum_pos (fun k _ => hpos k l) ⟨0, by simp⟩) ⟨0, by simp⟩
    refine mean_between (2 * r + 1) (2 * r + 1) _ _ 0 1 (fun i j _ _ => (div_pos (hpos i j) hY).le) ?_ ?_
    · unfold bellShare
      simp only [← Finset.sum_div]
      exact div_self hY.ne'
    · intro i j _ _
      exact (hu _ _ (nearest_inside (by omega) _) (nearest_inside (by omega) _)).real hch
  have hn0 : 0 ≤ n := (abs_nonneg _).trans cl.c0.err
  have one : ∀ ch, (ch = Col.c0 ∨ ch = Col.c1 ∨ ch = Col.c2 ∨ ch = Col.alpha) →
      ∀ q, 0 ≤ q → q ≤ 1 → Close (ch (blurred x y)) q n →
      Close (clamp01 (ch (px x y) +. (ch (px x y) -. ch (blurred x y)) *. factor))
        (max 0 (min 1 ((ch (px x y)).val + ((ch (px x y)).val - q) * factor.val)))
        (2 ^ m * (n + 8 / 16777216)) := by
    intro ch hch q q0 q1 hq
    have hc := (hu x y hx hy).chan hch
    obtain ⟨r0, r1⟩ := (hu x y hx hy).real hch
    have hp : (1 : ℝ) ≤ 2 ^ m := one_le_pow₀ (by norm_num)
    have B : NearF (ch (blurred x y)) q n 1 := ⟨hq, by rw [abs_le]; constructor <;> linarith⟩
    have D := NearF.sub' (C := 1) 1 (by norm_num) (NearF.unit hc) B
      (by rw [abs_le]; constructor <;> linarith) (by norm_num; linarith)
    have M := NearF.mul (m + 1) (by omega) D (NearF.of_fin hf hf2) (by
      have : n ≤ 1 / 2 := hsmall
      have e1 : (2 : ℝ) ^ (m + 1) = 2 * 2 ^ m := by rw [pow_add]; ring
      rw [e1]
      nlinarith)
    have A := NearF.add (m + 2) (by omega) (NearF.unit hc) M (by
      have : n ≤ 1 / 2 := hsmall
      have e2 : (2 : ℝ) ^ (m + 2) = 4 * 2 ^ m := by rw [pow_add]; ring
      have e1 : (2 : ℝ) ^ (m + 1) = 2 * 2 ^ m := by rw [pow_add]; ring
      rw [e2, e1]
      nlinarith)
    refine (NearF.clamp A).close.mono ?_
    have e2 : (2 : ℝ) ^ (m + 2) = 4 * 2 ^ m := by rw [pow_add]; ring
    have e1 : (2 : ℝ) ^ (m + 1) = 2 * 2 ^ m := by rw [pow_add]; ring
    rw [e2, e1]
    nlinarith
  obtain ⟨a0, b0⟩ := shares1 Col.c0 (by simp)
  obtain ⟨a1, b1⟩ := shares1 Col.c1 (by simp)
  obtain ⟨a2, b2⟩ := shares1 Col.c2 (by simp)
  obtain ⟨a3, b3⟩ := shares1 Col.alpha (by simp)
  exact ⟨one _ (by simp) _ a0 b0 cl.c0, one _ (by simp) _ a1 b1 cl.c1, one _ (by simp) _ a2 b2 cl.c2,
    one _ (by simp) _ a3 b3 cl.alpha⟩

/-! ## Edges -/

omit [Libm b32] in
/-- The length of a vector changes by at most the change of its components. -/
theorem hypot_close (a b c d : ℝ) :
    |Real.sqrt (a * a + b * b) - Real.sqrt (c * c + d * d)| ≤ |a - c| + |b - d| := by
  have key : ∀ p q r t : ℝ, Real.sqrt (p * p + q * q) ≤ Real.sqrt (r * r + t * t) + (|p - r| + |q - t|) := by
    intro p q r t
    have hr := Real.sqrt_nonneg (r * r + t * t)
    have h1 := Real.mul_self_sqrt (show 0 ≤ r * r + t * t by nlinarith [mul_self_nonneg r, mul_self_nonneg t])
    have ha := abs_nonneg (p - r)
    have hb := abs_nonneg (q - t)
    have lr : |r| ≤ Real.sqrt (r * r + t * t) := Real.abs_le_sqrt (by nlinarith [mul_self_nonneg t])
    have lt : |t| ≤ Real.sqrt (r * r + t * t) := Real.abs_le_sqrt (by nlinarith [mul_self_nonneg r])
    refine Real.sqrt_le_iff.2 ⟨by positivity, ?_⟩
    have e1 : p * p = r * r + 2 * (r * (p - r)) + (p - r) * (p - r) := by ring
    have e2 : q * q = t * t + 2 * (t * (q - t)) + (q - t) * (q - t) := by ring
    have b1 : r * (p - r) ≤ Real.sqrt (r * r + t * t) * |p - r| := by
      calc _ ≤ |r * (p - r)| := le_abs_self _
        _ = |r| * |p - r| := abs_mul _ _
        _ ≤ _ := by gcongr
    have b2 : t * (q - t) ≤ Real.sqrt (r * r + t * t) * |q - t| := by
      calc _ ≤ |t * (q - t)| := le_abs_self _
        _ = |t| * |q - t| := abs_mul _ _
        _ ≤ _ := by gcongr
    have c1 : (p - r) * (p - r) = |p - r| * |p - r| := (abs_mul_abs_self _).symm
    have c2 : (q - t) * (q - t) = |q - t| * |q - t| := (abs_mul_abs_self _).symm
    rw [e1, e2, c1, c2]
    nlinarith [mul_nonneg ha hb]
  rw [abs_le]
  have k1 := key a b c d
  have k2 := key c d a b
  rw [abs_sub_comm c, abs_sub_comm d] at k2
  constructor <;> linarith

omit [Libm b32] in
/-- A relative error of a square and a tiny absolute one. -/
theorem sqrt_close {R S : ℝ} (hR : 0 ≤ R) (hS : 0 ≤ S) (h : |S - R| ≤ 4 / 16777216 * R + 1 / 2 ^ 140) :
    |Real.sqrt S - Real.sqrt R| ≤ 5 / 16777216 * Real.sqrt R + 1 / 2 ^ 40 := by
  have hr := Real.sqrt_nonneg R
  rcases le_total R (1 / 2 ^ 100) with c | c
  · have hS2 : S ≤ 1 / 2 ^ 90 := by
      rw [abs_le] at h
      have : (1 : ℝ) / 2 ^ 100 + (4 / 16777216 * (1 / 2 ^ 100) + 1 / 2 ^ 140) ≤ 1 / 2 ^ 90 := by norm_num
      linarith [h.2]
    have s1 : Real.sqrt S ≤ 1 / 2 ^ 45 := by
      refine Real.sqrt_le_iff.2 ⟨by positivity, hS2.trans (by norm_num)⟩
    have s2 : Real.sqrt R ≤ 1 / 2 ^ 50 := by
      refine Real.sqrt_le_iff.2 ⟨by positivity, c.trans (by norm_num)⟩
    have hs := Real.sqrt_nonneg S
    rw [abs_le]
    have : (1 : ℝ) / 2 ^ 45 + 1 / 2 ^ 50 ≤ 1 / 2 ^ 40 := by norm_num
    constructor <;> linarith
  · have hRp : 0 < R := lt_of_lt_of_le (by positivity) c
    have hrp : 0 < Real.sqrt R := Real.sqrt_pos.2 hRp
    have hs := Real.sqrt_nonneg S
    have h2 : |S - R| ≤ 5 / 16777216 * R := by
      refine h.trans ?_
      have : (1 : ℝ) / 2 ^ 140 ≤ 1 / 16777216 * (1 / 2 ^ 100) := by norm_num
      linarith
    have e : S - R = (Real.sqrt S - Real.sqrt R) * (Real.sqrt S + Real.sqrt R) := by
      have a := Real.mul_self_sqrt hS
      have b := Real.mul_self_sqrt hR
      nlinarith
    rw [e, abs_mul, abs_of_pos (by linarith : 0 < Real.sqrt S + Real.sqrt R)] at h2
    have h3 : |Real.sqrt S - Real.sqrt R| * Real.sqrt R ≤ 5 / 16777216 * Real.sqrt R * Real.sqrt R := by
      calc _ ≤ |Real.sqrt S - Real.sqrt R| * (Real.sqrt S + Real.sqrt R) := by
            gcongr; linarith
        _ ≤ 5 / 16777216 * R := h2
        _ = _ := by rw [mul_assoc, Real.mul_self_sqrt hR]
    have h4 := le_of_mul_le_mul_right h3 hrp
    have : (0 : ℝ) ≤ 1 / 2 ^ 40 := by positivity
    linarith

/-- The length of a vector in binary32. -/
theorem hypot_float (hs : SqrtWithin) {x y : F32} {p q e : ℝ} (hx : Close x p e) (hy : Close y q e)
    (hp : |p| ≤ 4) (hq : |q| ≤ 4) (he : e ≤ 1 / 100) :
    Close (Scalar.sqrt (x *. x +. y *. y)) (Real.sqrt (p * p + q * q)) (2 * e + 72 / 16777216) := by
  have bound : ∀ {z : F32} {t : ℝ}, Close z t e → |t| ≤ 4 → |(z.val : ℝ)| ≤ 5 := by
    intro z t hz ht
    have := abs_add_le t ((z.val : ℝ) - t)
    rw [add_sub_cancel] at this
    linarith [hz.err]
  have sq : ∀ {z : F32}, z.fin = true → |(z.val : ℝ)| ≤ 5 →
      (z *. z).fin = true ∧ 0 ≤ (z *. z).val ∧ ((z *. z).val : ℝ) ≤ 32 ∧
      |((z *. z).val : ℝ) - (z.val : ℝ) * z.val| ≤ (z.val : ℝ) * z.val / 16777216 + 1 / 2 ^ 150 := by
    intro z hz hb
    have e1 : (z *. z) = FP.mul z z := rfl
    rw [e1, FP.mul_fin hz hz]
    have h0 : 0 ≤ z.val * z.val := mul_self_nonneg _
    have hq : |z.val * z.val| ≤ pow2 5 := by
      have : pow2 5 = 32 := rfl
      rw [this, abs_of_nonneg h0]
      have hb' : (z.val : ℝ) * z.val ≤ 32 := by
        rw [← abs_mul_abs_self]
        nlinarith [abs_nonneg (z.val : ℝ)]
      exact_mod_cast hb'
    obtain ⟨a1, a2⟩ := FP.ofRat_small (s := z.isNeg ^^ z.isNeg) (k := 5) (by decide) (by decide) hq
    have c := rn_rel_tiny (z.val * z.val)
    have cu := rn_le_pow2 (f := b32) (k := 5) (by decide) hq
    rw [abs_of_nonneg (rn_nonneg h0)] at cu
    rw [abs_of_nonneg h0] at c
    refine ⟨a1, by rw [a2]; exact rn_nonneg h0, ?_, ?_⟩
    · rw [a2]
      have : pow2 5 = 32 := rfl
      rw [this] at cu
      exact_mod_cast cu
    · rw [a2]
      have ep : pow2 (-150) = 1 / 2 ^ 150 := by norm_num [pow2_eq]
      rw [ep] at c
      have t : ((|rn b32 (z.val * z.val) - z.val * z.val| : ℚ) : ℝ) ≤
          ((z.val * z.val / 16777216 + 1 / 2 ^ 150 : ℚ) : ℝ) := by exact_mod_cast c
      push_cast at t
      exact t
  have bx := bound hx hp
  have by' := bound hy hq
  obtain ⟨x1, x2, x3, x4⟩ := sq hx.fin bx
  obtain ⟨y1, y2, y3, y4⟩ := sq hy.fin by'
  have hsum : (x *. x +. y *. y).fin = true ∧ 0 ≤ (x *. x +. y *. y).val ∧
      |((x *. x +. y *. y).val : ℝ) - ((x *. x).val + (y *. y).val)| ≤
        ((x *. x).val + (y *. y).val : ℝ) / 16777216 := by
    have e1 : (x *. x +. y *. y) = FP.add (x *. x) (y *. y) := rfl
    rw [e1, FP.add_fin x1 y1]
    have h0 : 0 ≤ (x *. x).val + (y *. y).val := add_nonneg x2 y2
    have hq : |(x *. x).val + (y *. y).val| ≤ pow2 6 := by
      have : pow2 6 = 64 := rfl
      rw [this, abs_of_nonneg h0]
      have : (((x *. x).val + (y *. y).val : ℚ) : ℝ) ≤ ((64 : ℚ) : ℝ) := by push_cast; linarith
      exact_mod_cast this
    obtain ⟨a1, a2⟩ := FP.ofRat_small (s := (x *. x).isNeg && (y *. y).isNeg) (k := 6) (by decide) (by decide) hq
    have c := rn_add_rel (FP.fin_rep x1).1 (FP.fin_rep y1).1
    rw [abs_of_nonneg h0] at c
    refine ⟨a1, by rw [a2]; exact rn_nonneg h0, ?_⟩
    rw [a2]
    have t : ((|rn b32 ((x *. x).val + (y *. y).val) - ((x *. x).val + (y *. y).val)| : ℚ) : ℝ) ≤
        ((((x *. x).val + (y *. y).val) / 16777216 : ℚ) : ℝ) := by exact_mod_cast c
    push_cast at t
    exact t
  obtain ⟨s1, s2, s3⟩ := hsum
  obtain ⟨q1, q2⟩ := hs _ s1 s2
  have s2' : (0 : ℝ) ≤ ((x *. x +. y *. y).val : ℝ) := by exact_mod_cast s2
  set S : ℝ := ((x *. x +. y *. y).val : ℝ) with hS
  set X : ℝ := (x.val : ℝ)
  set Y : ℝ := (y.val : ℝ)
  have hX2 : 0 ≤ X * X := mul_self_nonneg _
  have hY2 : 0 ≤ Y * Y := mul_self_nonneg _
  have hR : |S - (X * X + Y * Y)| ≤ 4 / 16777216 * (X * X + Y * Y) + 1 / 2 ^ 140 := by
    have t1 : (1 : ℝ) / 2 ^ 150 + 1 / 2 ^ 150 + (1 / 2 ^ 150 + 1 / 2 ^ 150) / 16777216 ≤ 1 / 2 ^ 140 := by norm_num
    rw [abs_le] at *
    constructor <;> nlinarith
  have c1 := sqrt_close (add_nonneg hX2 hY2) s2' hR
  have c2 := hypot_close X Y p q
  have hex := hx.err
  have hey := hy.err
  have hR8 : Real.sqrt (X * X + Y * Y) ≤ 8 := by
    refine Real.sqrt_le_iff.2 ⟨by norm_num, ?_⟩
    rw [← abs_mul_abs_self X, ← abs_mul_abs_self Y]
    nlinarith [abs_nonneg X, abs_nonneg Y]
  have hSq : Real.sqrt S ≤ 9 := by
    rw [abs_le] at c1
    have : (5 : ℝ) / 16777216 * 8 + 1 / 2 ^ 40 ≤ 1 := by norm_num
    nlinarith [Real.sqrt_nonneg (X * X + Y * Y), c1.2]
  refine ⟨q1.fin, ?_⟩
  have qe := q1.err
  calc _ ≤ |((Scalar.sqrt (x *. x +. y *. y)).val : ℝ) - Real.sqrt S| +
        |Real.sqrt S - Real.sqrt (p * p + q * q)| := abs_sub_le _ _ _
    _ ≤ Real.sqrt S / 8388608 + (|Real.sqrt S - Real.sqrt (X * X + Y * Y)| +
        |Real.sqrt (X * X + Y * Y) - Real.sqrt (p * p + q * q)|) := add_le_add qe (abs_sub_le _ _ _)
    _ ≤ 9 / 8388608 + ((5 / 16777216 * 8 + 1 / 2 ^ 40) + (e + e)) := by
        have : (5 : ℝ) / 16777216 * Real.sqrt (X * X + Y * Y) ≤ 5 / 16777216 * 8 := by gcongr
        have : Real.sqrt S / 8388608 ≤ 9 / 8388608 := by gcongr
        linarith
    _ ≤ _ := by
        have : (1 : ℝ) / 2 ^ 40 ≤ 1 / 16777216 := by norm_num
        linarith

/-- Differences across the neighbourhood, by columns (`1 0 -1`, weighted 1, 2, 1). -/
noncomputable def Spec.acrossX (w h : Nat) (px : Nat → Nat → Col F32) (x y : Nat) (ch : Col F32 → F32) : ℝ :=
  exactSum w h px 3 3 (fun i j => (1 - (i : ℝ)) * if j = 1 then 2 else 1) x y ch
/-- The same by rows. -/
noncomputable def Spec.acrossY (w h : Nat) (px : Nat → Nat → Col F32) (x y : Nat) (ch : Col F32 → F32) : ℝ :=
  exactSum w h px 3 3 (fun i j => (1 - (j : ℝ)) * if i = 1 then 2 else 1) x y ch

theorem small_lit (z : Int) (hz : |z| ≤ 8) : (lit (z : ℚ) : F32).fin = true ∧ ((lit (z : ℚ) : F32).val : ℝ) = z := by
  obtain ⟨h1, h2⟩ := FP.lit32 z (le_trans hz (by norm_num))
  refine ⟨h1, ?_⟩
  have e : (lit (z : ℚ) : F32) = FP.ofRat b32 false (z : ℚ) := rfl
  rw [e, h2]
  push_cast
  rfl

/-- Tables of small whole numbers are exact. -/
theorem whole_table (t : Nat → Nat → ℚ) (z : Nat → Nat → Int) (ht : ∀ i j, t i j = z i j)
    (hz : ∀ i j, i < 3 → j < 3 → |z i j| ≤ 8) (i j : Nat) (hi : i < 3) (hj : j < 3) :
    (lit (t i j) : F32).fin = true ∧ ((lit (t i j) : F32).val : ℝ) = z i j := by
  rw [ht]; exact small_lit _ (hz i j hi hj)

omit [Libm b32] in
/-- Values in [0, 1] give differences up to 4. -/
theorem across_bound (v : Nat → Nat → ℝ) (h : ∀ i j, 0 ≤ v i j ∧ v i j ≤ 1) :
    |∑ j ∈ Finset.range 3, ∑ i ∈ Finset.range 3, ((1 - (i : ℝ)) * if j = 1 then 2 else 1) * v i j| ≤ 4 ∧
    |∑ j ∈ Finset.range 3, ∑ i ∈ Finset.range 3, ((1 - (j : ℝ)) * if i = 1 then 2 else 1) * v i j| ≤ 4 := by
  simp only [Finset.sum_range_succ, Finset.sum_range_zero]
  norm_num
  rw [abs_le, abs_le]
  have := h 0 0; have := h 0 1; have := h 0 2; have := h 1 0; have := h 1 2
  have := h 2 0; have := h 2 1; have := h 2 2
  refine ⟨⟨?_, ?_⟩, ?_, ?_⟩ <;> linarith

/-- **Sobel edges.** Each colour channel is within 1/50000 of the exact length of the gradient,
clamped to [0, 1]. -/
theorem C95_sobel (hs : SqrtWithin) {b : PixelBuffer (Col F32)} {w h px} (s : Shows b w h px)
    (hu : ∀ x y, x < w → y < h → UnitCol (px x y)) :
    ∃ b' px', edge_detection b .Sobel = .ok b' ∧ Shows b' w h px' ∧ ∀ x y, x < w → y < h →
      CloseCol (1 / 50000) (px' x y)
        (let g := fun ch : Col F32 → F32 => max 0 (min 1 (Real.sqrt
          (acrossX w h px x y ch * acrossX w h px x y ch + acrossY w h px x y ch * acrossY w h px x y ch)))
        ⟨g Col.c0, g Col.c1, g Col.c2, 1⟩) := by
  obtain ⟨b', h1, h2⟩ := C47_sobel s
  refine ⟨b', _, h1, h2, fun x y hx hy => ?_⟩
  have tx : ∀ i j, i < 3 → j < 3 → (sobelX i j : F32).fin = true ∧
      ((sobelX i j : F32).val : ℝ) = (1 - (i : ℝ)) * if j = 1 then 2 else 1 := by
    intro i j hi hj
    have := whole_table (fun i j => (1 - (i : ℚ)) * if j = 1 then 2 else 1)
      (fun i j => (1 - (i : Int)) * if j = 1 then 2 else 1)
      (by intro i j; split <;> push_cast <;> ring)
      (by intro i j hi hj; interval_cases i <;> interval_cases j <;> simp) i j hi hj
    refine ⟨this.1, this.2.trans ?_⟩
    split <;> push_cast <;> ring
  have ty : ∀ i j, i < 3 → j < 3 → (sobelY i j : F32).fin = true ∧
      ((sobelY i j : F32).val : ℝ) = (1 - (j : ℝ)) * if i = 1 then 2 else 1 := by
    intro i j hi hj
    have := whole_table (fun i j => (1 - (j : ℚ)) * if i = 1 then 2 else 1)
      (fun i j => (1 - (j : Int)) * if i = 1 then 2 else 1)
      (by intro i j; split <;> push_cast <;> ring)
      (by intro i j hi hj; interval_cases i <;> interval_cases j <;> simp) i j hi hj
    refine ⟨this.1, this.2.trans ?_⟩
    split <;> push_cast <;> ring
  have sumx : ∑ j ∈ Finset.range 3, ∑ i ∈ Finset.range 3, |((sobelX i j : F32).val : ℝ)| ≤ 2 ^ 3 := by
    rw [Finset.sum_congr rfl fun j hj => Finset.sum_congr rfl fun i hi => by
      rw [(tx i j (Finset.mem_range.1 hi) (Finset.mem_range.1 hj)).2]]
    simp [Finset.sum_range_succ]; norm_num
  have sumy : ∑ j ∈ Finset.range 3, ∑ i ∈ Finset.range 3, |((sobelY i j : F32).val : ℝ)| ≤ 2 ^ 3 := by
    rw [Finset.sum_congr rfl fun j hj => Finset.sum_congr rfl fun i hi => by
      rw [(ty i j (Finset.mem_range.1 hi) (Finset.mem_range.1 hj)).2]]
    simp [Finset.sum_range_succ]; norm_num
  have cx := conv_close 3 (by norm_num) hu (W := 3) (H := 3) (by norm_num) sobelX
    (fun i j hi hj => (tx i j hi hj).1) sumx hx hy
  have cy := conv_close 3 (by norm_num) hu (W := 3) (H := 3) (by norm_num) sobelY
    (fun i j hi hj => (ty i j hi hj).1) sumy hx hy
  have ex : ∀ ch, exactSum w h px 3 3 (fun i j => ((sobelX i j : F32).val : ℝ)) x y ch = acrossX w h px x y ch :=
    fun ch => Finset.sum_congr rfl fun j hj => Finset.sum_congr rfl fun i hi =>
      congrArg (· * _) (tx i j (Finset.mem_range.1 hi) (Finset.mem_range.1 hj)).2
  have ey : ∀ ch, exactSum w h px 3 3 (fun i j => ((sobelY i j : F32).val : ℝ)) x y ch = acrossY w h px x y ch :=
    fun ch => Finset.sum_congr rfl fun j hj => Finset.sum_congr rfl fun i hi =>
      congrArg (· * _) (ty i j (Finset.mem_range.1 hi) (Finset.mem_range.1 hj)).2
  have hin : ∀ ch, (ch = Col.c0 ∨ ch = Col.c1 ∨ ch = Col.c2 ∨ ch = Col.alpha) → ∀ i j : Nat,
      (0 : ℝ) ≤ (ch (px (nearest w (x + i - (3 / 2 : Nat))) (nearest h (y + j - (3 / 2 : Nat))))).val ∧
      ((ch (px (nearest w (x + i - (3 / 2 : Nat))) (nearest h (y + j - (3 / 2 : Nat))))).val : ℝ) ≤ 1 :=
    fun ch hch i j => (hu _ _ (nearest_inside (by omega) _) (nearest_inside (by omega) _)).real hch
  have bx : ∀ ch, (ch = Col.c0 ∨ ch = Col.c1 ∨ ch = Col.c2 ∨ ch = Col.alpha) → |acrossX w h px x y ch| ≤ 4 :=
    fun ch hch => (across_bound _ (hin ch hch)).1
  have bY : ∀ ch, (ch = Col.c0 ∨ ch = Col.c1 ∨ ch = Col.c2 ∨ ch = Col.alpha) → |acrossY w h px x y ch| ≤ 4 :=
    fun ch hch => (across_bound _ (hin ch hch)).2
  have fin : ∀ {z t : F32} {p q e : ℝ}, Close z p e → Close t q e → |p| ≤ 4 → |q| ≤ 4 → e ≤ 216 / 33554432 →
      Close (clamp01 (Scalar.sqrt (z *. z +. t *. t))) (max 0 (min 1 (Real.sqrt (p * p + q * q)))) (1 / 50000) := by
    intro z t p q e hz ht hp hq he
    have := hypot_float hs hz ht hp hq (he.trans (by norm_num))
    have c := (NearF.clamp (x := Scalar.sqrt (z *. z +. t *. t)) ⟨this, le_rfl⟩).close
    refine c.mono ?_
    linarith
  have num : (3 * (3 * 3 : ℕ) * 2 ^ 3 / 33554432 : ℝ) ≤ 216 / 33554432 := by norm_num
  refine ⟨?_, ?_, ?_, ?_⟩
  · refine fin ?_ ?_ (bx _ (.inl rfl)) (bY _ (.inl rfl)) num
    · rw [← ex]; exact cx.c0
    · rw [← ey]; exact cy.c0
  · refine fin ?_ ?_ (bx _ (.inr (.inl rfl))) (bY _ (.inr (.inl rfl))) num
    · rw [← ex]; exact cx.c1
    · rw [← ey]; exact cy.c1
  · refine fin ?_ ?_ (bx _ (.inr (.inr (.inl rfl)))) (bY _ (.inr (.inr (.inl rfl)))) num
    · rw [← ex]; exact cx.c2
    · rw [← ey]; exact cy.c2
  · have := small_lit 1 (by norm_num)
    refine ⟨by simpa using this.1, ?_⟩
    have e := this.2
    norm_num at e
    rw [e]; norm_num

/-- **Laplace edges.** Each colour channel is within `432/2^25` of the sum of the eight neighbours
minus eight times the pixel itself; the picture becomes opaque. -/
theorem C95_laplace {b : PixelBuffer (Col F32)} {w h px} (s : Shows b w h px)
    (hu : ∀ x y, x < w → y < h → UnitCol (px x y)) :
    ∃ b' px', edge_detection b .Laplace = .ok b' ∧ Shows b' w h px' ∧ ∀ x y, x < w → y < h →
      CloseCol (432 / 33554432) (px' x y)
        (let g := exactSum w h px 3 3 (fun i j => if i = 1 ∧ j = 1 then -8 else 1) x y
        ⟨g Col.c0, g Col.c1, g Col.c2, 1⟩) := by
  obtain ⟨b', h1, h2⟩ := C47_laplace s
  refine ⟨b', _, h1, h2, fun x y hx hy => ?_⟩
  have t : ∀ i j, i < 3 → j < 3 → (Spec.laplace i j : F32).fin = true ∧
      ((Spec.laplace i j : F32).val : ℝ) = if i = 1 ∧ j = 1 then -8 else 1 := by
    intro i j hi hj
    have := whole_table (fun i j => if i = 1 ∧ j = 1 then -8 else 1)
      (fun i j => if i = 1 ∧ j = 1 then -8 else 1)
      (by intro i j; split <;> push_cast <;> ring)
      (by intro i j hi hj; split <;> norm_num) i j hi hj
    refine ⟨this.1, this.2.trans ?_⟩
    split <;> push_cast <;> ring
  have sum : ∑ j ∈ Finset.range 3, ∑ i ∈ Finset.range 3, |((Spec.laplace i j : F32).val : ℝ)| ≤ 2 ^ 4 := by
    rw [Finset.sum_congr rfl fun j hj => Finset.sum_congr rfl fun i hi => by
      rw [(t i j (Finset.mem_range.1 hi) (Finset.mem_range.1 hj)).2]]
    simp [Finset.sum_range_succ]; norm_num
  have c := conv_close 4 (by norm_num) hu (W := 3) (H := 3) (by norm_num) Spec.laplace
    (fun i j hi hj => (t i j hi hj).1) sum hx hy
  have e : ∀ ch, exactSum w h px 3 3 (fun i j => ((Spec.laplace i j : F32).val : ℝ)) x y ch =
      exactSum w h px 3 3 (fun i j => if i = 1 ∧ j = 1 then -8 else 1) x y ch :=
    fun ch => Finset.sum_congr rfl fun j hj => Finset.sum_congr rfl fun i hi =>
      congrArg (· * _) (t i j (Finset.mem_range.1 hi) (Finset.mem_range.1 hj)).2
  have num : (3 * (3 * 3 : ℕ) * 2 ^ 4 / 33554432 : ℝ) = 432 / 33554432 := by norm_num
  rw [num] at c
  refine ⟨?_, ?_, ?_, ?_⟩
  · exact c.c0.congr (e _)
  · exact c.c1.congr (e _)
  · exact c.c2.congr (e _)
  · have := small_lit 1 (by norm_num)
    refine ⟨by simpa using this.1, ?_⟩
    have e := this.2
    norm_num at e
    rw [e]; norm_num

end

/-! ## The hypotheses can be met -/

theorem sqrt_near_exists (v : ℝ) (h : 0 < v) : ∃ q : ℚ, |Real.sqrt v - q| < Real.sqrt v / 1073741824 :=
  exists_rat_near _ (by have := Real.sqrt_pos.2 h; positivity)

open Classical in
/-- `exp` and `sqrt` that pick a binary32 number next to the exact value. -/
@[instance_reducible] noncomputable def nearestExp : Libm b32 :=
  { Libm.trivial b32 with
    exp := fun x => FP.ofRat b32 false (max 0 (min 1
      (Classical.choose (exists_rat_near (Real.exp x.val) (show (0 : ℝ) < 1 / 33554432 by norm_num)))))
    sqrt := fun x => if h : 0 < (x.val : ℝ) then
        FP.ofRat b32 false (Classical.choose (sqrt_near_exists x.val h))
      else FP.ofRat b32 false 0 }

theorem nearestExp_exp : @ExpWithin nearestExp (1 / 16777216) := by
  intro x hx h0
  let := nearestExp
  have e := Classical.choose_spec
    (exists_rat_near (Real.exp x.val) (show (0 : ℝ) < 1 / 33554432 by norm_num))
  have x0 : (x.val : ℝ) ≤ 0 := by exact_mod_cast h0
  have p0 := Real.exp_pos (x.val : ℝ)
  have p1 := Real.exp_le_one_iff.2 x0
  show Close (FP.ofRat b32 false _) _ _ ∧ 0 ≤ (FP.ofRat b32 false _).val ∧ (FP.ofRat b32 false _).val ≤ 1
  generalize Classical.choose
    (exists_rat_near (Real.exp x.val) (show (0 : ℝ) < 1 / 33554432 by norm_num)) = q at e
  have q0 : 0 ≤ max 0 (min 1 q) := le_max_left _ _
  have q1 : max 0 (min 1 q) ≤ 1 := max_le (by norm_num) (min_le_left _ _)
  obtain ⟨a, b, c, d⟩ := FP.ofRat_unit (s := false) (q := max 0 (min 1 q)) (by rw [abs_of_nonneg q0]; exact q1)
  rw [b]
  have r0 := rn_nonneg (f := b32) q0
  rw [abs_of_nonneg r0] at d
  refine ⟨⟨a, ?_⟩, r0, d⟩
  rw [b]
  have cR : |((rn b32 (max 0 (min 1 q)) : ℚ) : ℝ) - ((max 0 (min 1 q) : ℚ) : ℝ)| ≤ 1 / 33554432 := by
    have := (Rat.cast_le (K := ℝ)).2 c
    push_cast at this ⊢
    exact this
  have m : |((max 0 (min 1 q) : ℚ) : ℝ) - Real.exp x.val| ≤ 1 / 33554432 := by
    push_cast
    rw [abs_lt] at e
    rw [abs_le]
    constructor
    · rcases le_total (1 : ℝ) q with c | c
      · rw [min_eq_left c]; have := le_max_right (0 : ℝ) 1; linarith
      · rw [min_eq_right c]; have := le_max_right (0 : ℝ) q; linarith
    · have : max (0 : ℝ) (min 1 q) ≤ max 0 (q : ℝ) := max_le_max le_rfl (min_le_right _ _)
      rcases le_total (0 : ℝ) q with c | c
      · rw [max_eq_right c] at this; linarith
      · rw [max_eq_left c] at this; linarith
  calc _ ≤ _ := abs_sub_le _ _ _
    _ ≤ 1 / 33554432 + 1 / 33554432 := add_le_add cR m
    _ ≤ _ := by norm_num

theorem nearestExp_sqrt : @SqrtWithin nearestExp := by
  intro x hx h0
  let := nearestExp
  have x0 : (0 : ℝ) ≤ x.val := by exact_mod_cast h0
  rcases lt_or_eq_of_le x0 with hp | hp
  · have e := Classical.choose_spec (sqrt_near_exists x.val hp)
    have eq : (Scalar.sqrt x : F32) = FP.ofRat b32 false (Classical.choose (sqrt_near_exists x.val hp)) := by
      show (if h : 0 < (x.val : ℝ) then _ else _) = _
      rw [dif_pos hp]
    rw [eq]
    generalize Classical.choose (sqrt_near_exists x.val hp) = q at e
    obtain ⟨r1, r2⟩ := FP.fin_rep hx
    have sp := Real.sqrt_pos.2 hp
    have hpq : 0 < x.val := by exact_mod_cast hp
    have low : (1 : ℝ) / 2 ^ 149 ≤ x.val := by
      obtain ⟨m, hm⟩ := rep_multiple149 r1
      have pp := pow2_pos (-149)
      have m1 : 1 ≤ m := by
        by_contra c
        have : (m : ℚ) ≤ 0 := by exact_mod_cast (by omega : m ≤ 0)
        nlinarith
      have m1q : (1 : ℚ) ≤ m := by exact_mod_cast m1
      have : pow2 (-149) ≤ x.val := by rw [hm]; nlinarith
      have e2 : pow2 (-149) = 1 / 2 ^ 149 := by norm_num [pow2_eq]
      rw [e2] at this
      have := (Rat.cast_le (K := ℝ)).2 this
      push_cast at this
      exact this
    have high : (x.val : ℝ) ≤ 2 ^ 128 := by
      rw [abs_of_pos hpq] at r2
      have e2 : pow2 b32.emax = 2 ^ 128 := by norm_num [pow2_eq, b32]
      rw [e2] at r2
      exact_mod_cast r2.le
    have slow : (1 : ℝ) / 2 ^ 75 ≤ Real.sqrt x.val := by
      refine Real.le_sqrt_of_sq_le (le_trans ?_ low)
      norm_num
    have shigh : Real.sqrt x.val ≤ 2 ^ 64 := Real.sqrt_le_iff.2 ⟨by positivity, high.trans (by norm_num)⟩
    rw [abs_lt] at e
    have q1 : (1 : ℝ) / 2 ^ 76 ≤ q := by
      have : (1 : ℝ) / 2 ^ 76 ≤ (1 / 2 ^ 75) * (1 - 1 / 1073741824) := by norm_num
      nlinarith
    have q2 : (q : ℝ) ≤ 2 ^ 65 := by
      have : (2 : ℝ) ^ 64 * (1 + 1 / 1073741824) ≤ 2 ^ 65 := by norm_num
      nlinarith
    have q1q : (1 : ℚ) / 2 ^ 76 ≤ q := by
      have : (((1 : ℚ) / 2 ^ 76 : ℚ) : ℝ) ≤ q := by push_cast; exact q1
      exact_mod_cast this
    have q0 : 0 < q := lt_of_lt_of_le (by positivity) q1q
    obtain ⟨a, b⟩ := FP.ofRat_small (s := false) (q := q) (k := 65) (by decide) (by decide) (by
      rw [abs_of_pos q0]
      have : pow2 65 = 2 ^ 65 := by norm_num [pow2_eq]
      rw [this]; exact_mod_cast q2)
    have c := rn_rel_normal (q := q) (by
      rw [abs_of_pos q0]
      refine le_trans ?_ q1q
      norm_num [pow2_eq])
    rw [abs_of_pos q0] at c
    refine ⟨⟨a, ?_⟩, by rw [b]; exact rn_nonneg q0.le⟩
    rw [b]
    have cR : |((rn b32 q : ℚ) : ℝ) - q| ≤ (q : ℝ) / 16777216 := by
      have := (Rat.cast_le (K := ℝ)).2 c
      push_cast at this ⊢
      exact this
    rw [abs_le] at *
    constructor <;> nlinarith
  · have eq : (Scalar.sqrt x : F32) = FP.ofRat b32 false 0 := by
      show (if h : 0 < (x.val : ℝ) then _ else _) = _
      rw [dif_neg (by rw [← hp]; exact lt_irrefl _)]
    rw [eq, ← hp]
    obtain ⟨a, b, -, -⟩ := FP.ofRat_unit (s := false) (q := 0) (by norm_num)
    rw [rn_zero] at b
    exact ⟨⟨a, by rw [b]; simp⟩, by rw [b]⟩

/-- A red and a half transparent grey pixel. -/
def twoPixels (x _y : Nat) : Col F32 :=
  if x = 0 then ⟨FP.ofRat b32 false 1, FP.ofRat b32 false 0, FP.ofRat b32 false 0, FP.ofRat b32 false 1⟩
  else ⟨FP.ofRat b32 false (1 / 3), FP.ofRat b32 false (1 / 3), FP.ofRat b32 false (1 / 3), FP.ofRat b32 false (1 / 2)⟩

/-- Non-vacuity: libraries, a picture with different colours and the default width of a radius 3 blur
meet all hypotheses. -/
example : ∃ L : Libm b32, @ExpWithin L (1 / 16777216) ∧ @SqrtWithin L ∧
    SigmaOK ((none : Option F32).getD (get_default_sigma (2 * 3 + 1))) ∧
    ∃ b : PixelBuffer (Col F32), Shows b 2 1 twoPixels ∧
      (∀ x y, x < 2 → y < 1 → UnitCol (twoPixels x y)) ∧
      (((2 * 3 + 1) * (2 * 3 + 1) : ℕ) * (2 * (1 / 16777216) + 42 / 16777216) ≤ (1 / 2 : ℝ)) := by
  refine ⟨nearestExp, nearestExp_exp, nearestExp_sqrt,
    (@C95_default_sigma nearestExp 3 (by norm_num) (by norm_num)).1,
    ⟨2, 1, [twoPixels 0 0, twoPixels 1 0]⟩, ⟨rfl, rfl, by simp [ValidSize], rfl⟩, ?_, by norm_num⟩
  intro x y hx hy
  interval_cases x <;> interval_cases y <;> exact ⟨by decide +kernel, by decide +kernel, by decide +kernel, by decide +kernel⟩

end D10
