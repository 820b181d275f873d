import Verif.Lemmas.Gaussian
import Verif.Props.Geometry
import Verif.Lemmas.Hsl
import Mathlib.Algebra.BigOperators.Ring.Finset
import Mathlib.Algebra.Order.BigOperators.Group.Finset
import Mathlib.Algebra.BigOperators.Intervals
import Mathlib.Algebra.BigOperators.Field
import Mathlib.Analysis.SpecialFunctions.Exp

/-!
# Convolution, blur, sharpening and edge detection (C10, C11, C12, C46, C47)

The specification used in the statements is `Verif/SpecOps.lean`.
-/

namespace D10
open Spec PixelBuffer LawfulScalar
open Scalar (isNan)

/-! ## C10 Static and dynamic convolution -/

section
variable {F : Type} [Scalar F]

/-- Convolution with a static kernel is the weighted sum of the neighbourhood, bit for bit. -/
theorem C10_apply_kernel {b : PixelBuffer (Col F)} {w h px} (s : Shows b w h px)
    {k : Kernel F} {N : Nat} {wt : Nat → Nat → F} (hk : k.Holds N wt) (hN : N ≤ 1073741824) :
    ∃ b', b.apply_kernel N k = .ok b' ∧ Shows b' w h (conv w h px N N wt) := by
  apply C07_map_colors_enumerated s
  intro x y hx hy
  have hw := s.size.width_le
  have hh := s.size.height_le
  rw [asI32_of_lt (by omega), asI32_of_lt (by omega), C09_get_kernel_in_image s N x y hN hx hy,
    ok_bind]
  have := Kernel.apply_kernel_ok hk fun (i j : Nat) =>
    px (nearest w (x + i - (N / 2 : Nat))) (nearest h (y + j - (N / 2 : Nat)))
  unfold window
  rw [this]
  rfl

/-- Convolution with a dynamic kernel is the same weighted sum. -/
theorem C10_apply_kernel_dyn [LawfulScalar F] {b : PixelBuffer (Col F)} {w h px}
    (s : Shows b w h px) {k : KernelDyn F} {W H : Nat} {wt : Nat → Nat → F} (hk : k.Holds W H wt)
    (hlt : W * H < 4294967296) (hW : W ≤ 1073741824) (hH : H ≤ 1073741824) :
    ∃ b', b.apply_kernel_dyn k = .ok b' ∧ Shows b' w h (conv w h px W H wt) := by
  apply C07_map_colors_enumerated s
  intro x y hx hy
  rw [KernelDyn.value_ok s hk hlt hW hH x y hx hy]
  simp only [mul_swap _ (wt _ _)]
  rfl

/-- Static and dynamic convolution with the same weights give the same image. -/
theorem C10_agree [LawfulScalar F] {b : PixelBuffer (Col F)} (hb : WellFormed b)
    {k : Kernel F} {kd : KernelDyn F} {N : Nat} {wt : Nat → Nat → F} (hk : k.Holds N wt)
    (hkd : kd.Holds N N wt) (hlt : N * N < 4294967296) :
    b.apply_kernel N k = b.apply_kernel_dyn kd ∧ ∃ b', b.apply_kernel N k = .ok b' := by
  have : Inhabited (Col F) := ⟨Rgb.NONE⟩
  have hN : N ≤ 1073741824 := by
    by_contra hc
    have := Nat.mul_le_mul (show 1073741825 ≤ N by omega) (show 1073741825 ≤ N by omega)
    omega
  obtain ⟨b1, h1, s1⟩ := C10_apply_kernel (shows_of_wellFormed hb) hk hN
  obtain ⟨b2, h2, s2⟩ := C10_apply_kernel_dyn (shows_of_wellFormed hb) hkd hlt hN hN
  rw [h1, h2, s1.eq s2]
  exact ⟨rfl, _, rfl⟩

omit [Scalar F] in
/-- Reading a weight of a dynamic kernel. -/
theorem C10_kernel_get {k : KernelDyn F} {W H : Nat} {wt : Nat → Nat → F} (hk : k.Holds W H wt)
    (hlt : W * H < 4294967296) (x y : Nat) (hx : x < W) (hy : y < H) : k.get x y = .ok (wt x y) := by
  unfold KernelDyn.get
  have h1 := idx_lt hx hy
  rw [hk.width, u32_ok (by omega), ok_bind, u32_ok (by omega), ok_bind, hk.data]
  exact index_ok (rows_getElem? wt hx hy)

omit [Scalar F] in
/-- `KernelDyn::new` accepts exactly the lists with `width * height` entries. -/
theorem C10_kernel_new (data : List F) (W H : Nat) :
    (data.length = W * H ∧ W * H < 4294967296 →
      KernelDyn.new data W H = .ok ⟨data, W, H⟩) ∧
    (¬ (data.length = W * H ∧ W * H < 4294967296) → ∃ e, KernelDyn.new data W H = .error e) := by
  unfold KernelDyn.new
  constructor
  · rintro ⟨h1, h2⟩
    rw [u32_ok h2, ok_bind, assert_ok (by simpa using h1)]; rfl
  · intro hn
    by_cases h2 : W * H < 4294967296
    · rw [u32_ok h2, ok_bind]
      have : (data.length == W * H) = false := by simpa using fun h => hn ⟨h, h2⟩
      rw [this]
      exact ⟨_, rfl⟩
    · simp only [u32, if_neg h2]
      exact ⟨_, rfl⟩

/-- A static and a dynamic kernel with the same (asymmetric) weights exist for every table. -/
example (wt : Nat → Nat → F) : ∃ (k : Kernel F) (kd : KernelDyn F),
    k.Holds 3 wt ∧ kd.Holds 3 3 wt := ⟨⟨_⟩, ⟨_, _, _⟩, rfl, rfl, rfl, rfl⟩

/-- The two Sobel kernels offered as dynamic kernels: `(i - 1)` (columns) and `(1 - j)` (rows),
weighted 1, 2, 1 across. -/
theorem C10_sobel_kernels :
    (KernelDyn.new_sobel_x (F := F)).Holds 3 3
      (fun i j => lit (((i : ℚ) - 1) * (if j = 1 then 2 else 1))) ∧
    (KernelDyn.new_sobel_y (F := F)).Holds 3 3
      (fun i j => lit ((1 - (j : ℚ)) * (if i = 1 then 2 else 1))) := by
  constructor
  · refine ⟨rfl, rfl, ?_⟩
    show [_, _, _, _, _, _, _, _, _] = [_, _, _, _, _, _, _, _, _]
    norm_num
  · refine ⟨rfl, rfl, ?_⟩
    show [_, _, _, _, _, _, _, _, _] = [_, _, _, _, _, _, _, _, _]
    norm_num

end

/-! ## C11 Constant images (exact arithmetic) -/

section
variable [Junk]

theorem Exact.total (W H : Nat) (t : Nat → Nat → ℝ) :
    total W H t = ∑ j ∈ Finset.range H, ∑ i ∈ Finset.range W, t i j := by
  unfold Spec.total
  have key : ∀ (l : List ℝ) (a : ℝ), l.foldl (· +. ·) a = a + l.sum := by
    intro l
    induction l with
    | nil => simp
    | cons x xs ih => intro a; rw [List.foldl_cons, ih, Exact.add, List.sum_cons, add_assoc]
  rw [key]
  ex_simp
  rw [zero_add]
  induction H with
  | zero => simp [rows]
  | succ n ih =>
    rw [rows_succ, List.sum_append, ih, Finset.sum_range_succ]
    congr 1

/-- Convolving a constant image multiplies every channel (alpha included) by the sum of the
weights. -/
theorem C11_constant {b : PixelBuffer (Col ℝ)} {w h : Nat} {c : Col ℝ}
    (s : Shows b w h fun _ _ => c) {k : Kernel ℝ} {N : Nat} {wt : Nat → Nat → ℝ}
    (hk : k.Holds N wt) (hN : N ≤ 1073741824) (S : ℝ)
    (hS : ∑ j ∈ Finset.range N, ∑ i ∈ Finset.range N, wt i j = S) :
    ∃ b', b.apply_kernel N k = .ok b' ∧
      Shows b' w h fun _ _ => ⟨S * c.c0, S * c.c1, S * c.c2, S * c.alpha⟩ := by
  obtain ⟨b', h1, h2⟩ := C10_apply_kernel s hk hN
  refine ⟨b', h1, h2.congr fun x y _ _ => ?_⟩
  simp only [conv, perChannel, Exact.total, Exact.mul, ← Finset.sum_mul, hS]

/-- Weights that sum to one: the image is unchanged. -/
theorem C11_constant_one {b : PixelBuffer (Col ℝ)} {w h : Nat} {c : Col ℝ}
    (s : Shows b w h fun _ _ => c) {k : Kernel ℝ} {N : Nat} {wt : Nat → Nat → ℝ}
    (hk : k.Holds N wt) (hN : N ≤ 1073741824)
    (hS : ∑ j ∈ Finset.range N, ∑ i ∈ Finset.range N, wt i j = 1) :
    b.apply_kernel N k = .ok b := by
  obtain ⟨b', h1, h2⟩ := C11_constant s hk hN 1 hS
  rw [h1]
  congr 1
  exact h2.eq (s.congr fun x y _ _ => by simp)

/-- Weights that sum to zero: everything becomes 0. -/
theorem C11_constant_zero {b : PixelBuffer (Col ℝ)} {w h : Nat} {c : Col ℝ}
    (s : Shows b w h fun _ _ => c) {k : Kernel ℝ} {N : Nat} {wt : Nat → Nat → ℝ}
    (hk : k.Holds N wt) (hN : N ≤ 1073741824)
    (hS : ∑ j ∈ Finset.range N, ∑ i ∈ Finset.range N, wt i j = 0) :
    ∃ b', b.apply_kernel N k = .ok b' ∧ Shows b' w h fun _ _ => ⟨0, 0, 0, 0⟩ := by
  obtain ⟨b', h1, h2⟩ := C11_constant s hk hN 0 hS
  exact ⟨b', h1, h2.congr fun x y _ _ => by simp⟩

/-- The same for dynamic kernels. -/
theorem C11_constant_dyn {b : PixelBuffer (Col ℝ)} {w h : Nat} {c : Col ℝ}
    (s : Shows b w h fun _ _ => c) {k : KernelDyn ℝ} {W H : Nat} {wt : Nat → Nat → ℝ}
    (hk : k.Holds W H wt) (hlt : W * H < 4294967296) (hW : W ≤ 1073741824) (hH : H ≤ 1073741824)
    (S : ℝ) (hS : ∑ j ∈ Finset.range H, ∑ i ∈ Finset.range W, wt i j = S) :
    ∃ b', b.apply_kernel_dyn k = .ok b' ∧
      Shows b' w h fun _ _ => ⟨S * c.c0, S * c.c1, S * c.c2, S * c.alpha⟩ := by
  obtain ⟨b', h1, h2⟩ := C10_apply_kernel_dyn s hk hlt hW hH
  refine ⟨b', h1, h2.congr fun x y _ _ => ?_⟩
  simp only [conv, perChannel, Exact.total, Exact.mul, ← Finset.sum_mul, hS]

omit [Junk] in
/-- A weighted mean lies between the bounds of what is averaged. -/
theorem mean_between (W H : Nat) (wt v : Nat → Nat → ℝ) (lo hi : ℝ)
    (hp : ∀ i j, i < W → j < H → 0 ≤ wt i j)
    (hS : ∑ j ∈ Finset.range H, ∑ i ∈ Finset.range W, wt i j = 1)
    (hv : ∀ i j, i < W → j < H → lo ≤ v i j ∧ v i j ≤ hi) :
    lo ≤ ∑ j ∈ Finset.range H, ∑ i ∈ Finset.range W, wt i j * v i j ∧
    ∑ j ∈ Finset.range H, ∑ i ∈ Finset.range W, wt i j * v i j ≤ hi := by
  constructor
  · calc lo = ∑ j ∈ Finset.range H, ∑ i ∈ Finset.range W, wt i j * lo := by
          simp only [← Finset.sum_mul, hS, one_mul]
      _ ≤ _ := by
          refine Finset.sum_le_sum fun j hj => Finset.sum_le_sum fun i hi => ?_
          have h1 := Finset.mem_range.1 hi
          have h2 := Finset.mem_range.1 hj
          exact mul_le_mul_of_nonneg_left (hv i j h1 h2).1 (hp i j h1 h2)
  · calc _ ≤ ∑ j ∈ Finset.range H, ∑ i ∈ Finset.range W, wt i j * hi := by
          refine Finset.sum_le_sum fun j hj => Finset.sum_le_sum fun i hi => ?_
          have h1 := Finset.mem_range.1 hi
          have h2 := Finset.mem_range.1 hj
          exact mul_le_mul_of_nonneg_left (hv i j h1 h2).2 (hp i j h1 h2)
      _ = hi := by simp only [← Finset.sum_mul, hS, one_mul]

/-- Non-negative weights that sum to one never leave the range of the image: each channel of the
result is between the least and the greatest value of that channel. -/
theorem C11_between {b : PixelBuffer (Col ℝ)} {w h : Nat} {px} (s : Shows b w h px)
    {k : Kernel ℝ} {N : Nat} {wt : Nat → Nat → ℝ} (hk : k.Holds N wt) (hN : N ≤ 1073741824)
    (hp : ∀ i j, i < N → j < N → 0 ≤ wt i j)
    (hS : ∑ j ∈ Finset.range N, ∑ i ∈ Finset.range N, wt i j = 1)
    (ch : Col ℝ → ℝ) (hch : ch = Col.c0 ∨ ch = Col.c1 ∨ ch = Col.c2 ∨ ch = Col.alpha) (lo hi : ℝ)
    (hlo : ∀ x y, x < w → y < h → lo ≤ ch (px x y)) (hhi : ∀ x y, x < w → y < h → ch (px x y) ≤ hi) :
    ∃ b' px', b.apply_kernel N k = .ok b' ∧ Shows b' w h px' ∧
      ∀ x y, x < w → y < h → lo ≤ ch (px' x y) ∧ ch (px' x y) ≤ hi := by
  obtain ⟨b', h1, h2⟩ := C10_apply_kernel s hk hN
  refine ⟨b', _, h1, h2, fun x y hx hy => ?_⟩
  have e : ch (conv w h px N N wt x y) = ∑ j ∈ Finset.range N, ∑ i ∈ Finset.range N, wt i j *
      ch (px (nearest w (x + i - (N / 2 : Nat))) (nearest h (y + j - (N / 2 : Nat)))) := by
    rcases hch with rfl | rfl | rfl | rfl <;> simp only [conv, perChannel, Exact.total, Exact.mul]
  rw [e]
  apply mean_between N N wt _ lo hi hp hS
  intro i j _ _
  have n1 : ∀ v, nearest w v < w := fun v => by unfold nearest; omega
  have n2 : ∀ v, nearest h v < h := fun v => by unfold nearest; omega
  exact ⟨hlo _ _ (n1 _) (n2 _), hhi _ _ (n1 _) (n2 _)⟩

/-- Hypotheses met: the 3 x 3 box blur. -/
example : (∑ j ∈ Finset.range 3, ∑ i ∈ Finset.range 3, (fun _ _ => 1 / 9 : Nat → Nat → ℝ) i j) = 1 := by
  norm_num
/-- Hypotheses met: the Laplace weights. -/
example : (∑ j ∈ Finset.range 3, ∑ i ∈ Finset.range 3,
    (fun i j => if i = 1 ∧ j = 1 then -8 else 1 : Nat → Nat → ℝ) i j) = 0 := by
  simp [Finset.sum_range_succ]; norm_num

end

/-! ## C12 Gaussian kernels -/

/-- The static and the dynamic constructor hold the same weights, in every arithmetic. -/
theorem C12_constructors {F : Type} [Scalar F] (N : Nat) (sigma : F) (hN : N * N < 4294967296) :
    ∃ k kd, Kernel.new_gaussian N sigma = .ok k ∧ KernelDyn.new_gaussian N sigma = .ok kd ∧
      k.Holds N (gaussWeight N sigma) ∧ kd.Holds N N (gaussWeight N sigma) := by
  obtain ⟨k, h1, h2⟩ := Kernel.new_gaussian_ok N sigma
  obtain ⟨kd, h3, h4⟩ := KernelDyn.new_gaussian_ok N sigma hN
  exact ⟨k, kd, h1, h3, h2, h4⟩

section
variable [Junk]

theorem Exact.bell (sigma : ℝ) (h0 : sigma ≠ 0) (dx dy : Int) :
    bell sigma dx dy = Real.exp (-((dx : ℝ) ^ 2 + (dy : ℝ) ^ 2) / (2 * sigma ^ 2)) /
      (3.14159265358979323846264338327950288 * (2 * sigma ^ 2)) := by
  have hs : (0 : ℝ) < 2 * sigma * sigma := by nlinarith [sq_nonneg sigma, sq_pos_of_ne_zero h0]
  have hr : (0 : ℝ) ≤ (dx : ℝ) * dx + dy * dy := by nlinarith [mul_self_nonneg (dx : ℝ), mul_self_nonneg (dy : ℝ)]
  unfold Spec.bell
  ex_simp
  rw [Exact.sqrt hr, Real.mul_self_sqrt hr, Exact.div hs.ne', Exact.div (by positivity)]
  congr 2
  · ring
  · ring

theorem Exact.bellSum_pos (N : Nat) (hN : 0 < N) (sigma : ℝ) (h0 : sigma ≠ 0) :
    0 < bellSum N sigma := by
  unfold bellSum
  rw [Exact.total]
  have hne : (Finset.range N).Nonempty := Finset.nonempty_range_iff.2 (by omega)
  refine Finset.sum_pos (fun j _ => Finset.sum_pos (fun i _ => ?_) hne) hne
  rw [Exact.bell _ h0]
  have := sq_pos_of_ne_zero h0
  positivity

/-- The weights are the Gaussian bell divided by its sum over the table: the familiar formula. -/
theorem C12_formula (N : Nat) (hN : 0 < N) (sigma : ℝ) (h0 : sigma ≠ 0) (x y : Nat) :
    gaussWeight N sigma x y =
      Real.exp (-(((x : ℝ) - (N / 2 : Nat)) ^ 2 + ((y : ℝ) - (N / 2 : Nat)) ^ 2) / (2 * sigma ^ 2)) /
      ∑ j ∈ Finset.range N, ∑ i ∈ Finset.range N,
        Real.exp (-(((i : ℝ) - (N / 2 : Nat)) ^ 2 + ((j : ℝ) - (N / 2 : Nat)) ^ 2) / (2 * sigma ^ 2)) := by
  have hpos := Exact.bellSum_pos N hN sigma h0
  unfold gaussWeight
  rw [Exact.div hpos.ne', Exact.bell _ h0]
  have hs := sq_pos_of_ne_zero h0
  unfold bellSum
  rw [Exact.total]
  simp only [Exact.bell _ h0]
  simp only [← Finset.sum_div]
  rw [Finset.sum_comm]
  simp only [Int.cast_sub, Int.cast_natCast]
  rw [div_div_div_cancel_right₀ (by positivity)]

theorem gaussWeight_sum (N : Nat) (hN : 0 < N) (sigma : ℝ) (h0 : sigma ≠ 0) :
    ∑ j ∈ Finset.range N, ∑ i ∈ Finset.range N, gaussWeight N sigma i j = 1 := by
  have hpos := Exact.bellSum_pos N hN sigma h0
  have ew : ∀ x y, gaussWeight N sigma x y = bell sigma ((x : Int) - (N / 2 : Nat))
      ((y : Int) - (N / 2 : Nat)) / bellSum N sigma := fun x y => Exact.div hpos.ne'
  simp only [ew, ← Finset.sum_div]
  rw [div_eq_one_iff_eq hpos.ne']
  unfold bellSum
  rw [Exact.total, Finset.sum_comm]

/-- The weights of the generated kernel are positive, sum to one, are symmetric under transposition
and, for odd sizes, under both reflections, and never grow with the distance from the centre. -/
theorem C12_gaussian (N : Nat) (hN : 0 < N) (hN2 : N * N < 4294967296) (sigma : ℝ) (h0 : 0 < sigma) :
    ∃ k kd wt, Kernel.new_gaussian N sigma = .ok k ∧ KernelDyn.new_gaussian N sigma = .ok kd ∧
      k.Holds N wt ∧ kd.Holds N N wt ∧
      (∀ x y, 0 < wt x y) ∧
      ∑ j ∈ Finset.range N, ∑ i ∈ Finset.range N, wt i j = 1 ∧
      (∀ x y, wt x y = wt y x) ∧
      (N % 2 = 1 → ∀ x y, x < N → wt (N - 1 - x) y = wt x y) ∧
      (N % 2 = 1 → ∀ x y, y < N → wt x (N - 1 - y) = wt x y) ∧
      (∀ x y x' y' : Nat,
        ((x : Int) - (N / 2 : Nat)) ^ 2 + ((y : Int) - (N / 2 : Nat)) ^ 2 ≤
          ((x' : Int) - (N / 2 : Nat)) ^ 2 + ((y' : Int) - (N / 2 : Nat)) ^ 2 →
        wt x' y' ≤ wt x y) := by
  obtain ⟨k, kd, h1, h2, h3, h4⟩ := C12_constructors N sigma hN2
  have hsig := h0.ne'
  have hpos := Exact.bellSum_pos N hN sigma hsig
  have hs := sq_pos_of_ne_zero hsig
  have ew : ∀ x y, gaussWeight N sigma x y = bell sigma ((x : Int) - (N / 2 : Nat))
      ((y : Int) - (N / 2 : Nat)) / bellSum N sigma := fun x y => Exact.div hpos.ne'
  have hpw : ∀ x y, 0 < gaussWeight N sigma x y := by
    intro x y
    rw [ew, Exact.bell _ hsig]
    positivity
  have hmono : ∀ x y x' y' : Nat,
        ((x : Int) - (N / 2 : Nat)) ^ 2 + ((y : Int) - (N / 2 : Nat)) ^ 2 ≤
          ((x' : Int) - (N / 2 : Nat)) ^ 2 + ((y' : Int) - (N / 2 : Nat)) ^ 2 →
        gaussWeight N sigma x' y' ≤ gaussWeight N sigma x y := by
    intro x y x' y' hle
    rw [ew, ew, Exact.bell _ hsig, Exact.bell _ hsig]
    have hle' : (((x : Int) - (N / 2 : Nat) : Int) : ℝ) ^ 2 + (((y : Int) - (N / 2 : Nat) : Int) : ℝ) ^ 2 ≤
        (((x' : Int) - (N / 2 : Nat) : Int) : ℝ) ^ 2 + (((y' : Int) - (N / 2 : Nat) : Int) : ℝ) ^ 2 := by
      exact_mod_cast hle
    gcongr
  have hsame : ∀ x y x' y' : Nat,
        ((x : Int) - (N / 2 : Nat)) ^ 2 + ((y : Int) - (N / 2 : Nat)) ^ 2 =
          ((x' : Int) - (N / 2 : Nat)) ^ 2 + ((y' : Int) - (N / 2 : Nat)) ^ 2 →
        gaussWeight N sigma x' y' = gaussWeight N sigma x y := fun x y x' y' he =>
    le_antisymm (hmono _ _ _ _ he.le) (hmono _ _ _ _ he.ge)
  refine ⟨k, kd, gaussWeight N sigma, h1, h2, h3, h4, hpw,
    gaussWeight_sum N hN sigma hsig, ?_, ?_, ?_, hmono⟩
  · intro x y
    exact hsame _ _ _ _ (by ring)
  · intro hodd x y hx
    apply hsame
    have : ((N - 1 - x : Nat) : Int) - (N / 2 : Nat) = -((x : Int) - (N / 2 : Nat)) := by omega
    rw [this]; ring
  · intro hodd x y hx
    apply hsame
    have : ((N - 1 - y : Nat) : Int) - (N / 2 : Nat) = -((y : Int) - (N / 2 : Nat)) := by omega
    rw [this]; ring

/-- The default sigma for radius `r` is `r / 2`. -/
theorem C12_default_sigma (r : Nat) : (get_default_sigma (2 * r + 1) : ℝ) = r / 2 := by
  unfold get_default_sigma Scalar.ofNat
  ex_simp
  push_cast
  ring

end

/-- With sigma 0 no weight is a number, whatever `exp` and `sqrt` return (binary32). -/
theorem C12_sigma_zero_nan [Libm b32] (N : Nat) (hN : 0 < N) (neg : Bool) (x y : Nat) :
    gaussWeight N (FP.zero neg : F32) x y = FP.nan := by
  -- every entry is infinite or not a number before the division
  have hbell : ∀ dx dy, ∃ r : F32, bell (FP.zero neg : F32) dx dy = r ∧
      (r = FP.nan ∨ ∃ s, r = FP.inf s) := by
    intro dx dy
    simp only [bell]
    have hs : ((lit 2 : F32) *. FP.zero neg *. FP.zero neg) = FP.zero false := by
      show FP.mul (FP.mul (FP.ofRat b32 false 2) (FP.zero neg)) (FP.zero neg) = _
      cases neg <;> decide +kernel
    have hp : ((lit 3.14159265358979323846264338327950288 : F32) *. FP.zero false) = FP.zero false := by
      show FP.mul (FP.ofRat b32 false 3.14159265358979323846264338327950288) (FP.zero false) = _
      decide +kernel
    rw [hs, hp]
    refine ⟨_, rfl, ?_⟩
    generalize (Scalar.exp _ : F32) = e
    show FP.div e (FP.zero false) = _ ∨ _
    cases e with
    | nan => exact .inl rfl
    | inf s => exact .inr ⟨_, rfl⟩
    | zero s => exact .inl rfl
    | num q h => exact .inr ⟨_, rfl⟩
  have hsum : ∀ (l : List F32) (a : F32), (∀ v ∈ l, v = FP.nan ∨ ∃ s, v = FP.inf s) →
      (a = FP.nan ∨ ∃ s, a = FP.inf s) →
      (l.foldl (· +. ·) a = FP.nan ∨ ∃ s, l.foldl (· +. ·) a = FP.inf s) := by
    intro l
    induction l with
    | nil => intro a _ ha; exact ha
    | cons v vs ih =>
      intro a hl ha
      rw [List.foldl_cons]
      apply ih _ (fun w hw => hl w (by simp [hw]))
      show FP.add a v = _ ∨ _
      rcases ha with rfl | ⟨s, rfl⟩
      · exact .inl rfl
      · rcases hl v (by simp) with rfl | ⟨t, rfl⟩
        · exact .inl rfl
        · cases s <;> cases t
          · exact .inr ⟨false, rfl⟩
          · exact .inl rfl
          · exact .inl rfl
          · exact .inr ⟨true, rfl⟩
  have htot : bellSum N (FP.zero neg : F32) = FP.nan ∨ ∃ s, bellSum N (FP.zero neg : F32) = FP.inf s := by
    unfold bellSum Spec.total
    have hall : ∀ v ∈ rows N N (fun i j => bell (FP.zero neg : F32) ((j : Int) - (N / 2 : Nat))
        ((i : Int) - (N / 2 : Nat))), v = FP.nan ∨ ∃ s, v = FP.inf s := by
      intro v hv
      rw [rows_eq_range] at hv
      obtain ⟨i, _, rfl⟩ := List.mem_map.1 hv
      obtain ⟨r, h1, h2⟩ := hbell (((i / N : Nat) : Int) - (N / 2 : Nat)) (((i % N : Nat) : Int) - (N / 2 : Nat))
      rw [h1]; exact h2
    have hlen : (rows N N (fun i j => bell (FP.zero neg : F32) ((j : Int) - (N / 2 : Nat))
        ((i : Int) - (N / 2 : Nat)))).length = N * N := rows_length _ _ _
    generalize rows N N (fun i j => bell (FP.zero neg : F32) ((j : Int) - (N / 2 : Nat))
        ((i : Int) - (N / 2 : Nat))) = l at hall hlen
    cases l with
    | nil => have := Nat.mul_pos hN hN; simp at hlen; omega
    | cons v vs =>
      rw [List.foldl_cons]
      apply hsum _ _ fun w hw => hall w (by simp [hw])
      show FP.add (FP.ofRat b32 false 0) v = _ ∨ _
      rw [FP.ofRat_zero]
      rcases hall v (by simp) with rfl | ⟨s, rfl⟩
      · exact .inl rfl
      · refine .inr ⟨s, ?_⟩
        show FP.add (FP.ofRat b32 false 0) (FP.inf s) = _
        rw [FP.ofRat_zero]
        rfl
  obtain ⟨r, h1, h2⟩ := hbell ((x : Int) - (N / 2 : Nat)) ((y : Int) - (N / 2 : Nat))
  unfold gaussWeight
  rw [h1]
  show FP.div r (bellSum N (FP.zero neg : F32)) = _
  rcases h2 with rfl | ⟨s, rfl⟩
  · rfl
  · rcases htot with h | ⟨t, h⟩ <;> rw [h] <;> rfl

/-- The default sigma for radius 0 is 0, so blurring with radius 0 needs an explicit sigma. -/
theorem C12_default_sigma_radius0 [Libm b32] : (get_default_sigma 1 : F32) = FP.zero false := by
  show FP.div (FP.sub (FP.ofRat b32 false ((1 : Nat) : ℚ)) (FP.ofRat b32 false 1)) (FP.ofRat b32 false 4) = _
  decide +kernel

/-- `gaussian_blur` is the convolution with the `(2r+1) x (2r+1)` Gaussian table, whichever of its
two code paths is taken; sizes above 65535 overflow. -/
theorem C12_gaussian_blur {F : Type} [Scalar F] [LawfulScalar F] {b : PixelBuffer (Col F)} {w h px}
    (s : Shows b w h px) (r : Nat) (sigma : Option F) :
    (r ≤ 32767 → ∃ b', gaussian_blur b r sigma = .ok b' ∧ Shows b' w h
      (conv w h px (2 * r + 1) (2 * r + 1)
        (gaussWeight (2 * r + 1) (sigma.getD (get_default_sigma (2 * r + 1)))))) ∧
    (32767 < r → gaussian_blur b r sigma = .error .overflow) := by
  unfold gaussian_blur
  constructor
  · intro hr
    rw [u32_ok (by omega), ok_bind, u32_ok (by omega), ok_bind, Nat.mul_comm r 2]
    have hlt : (2 * r + 1) * (2 * r + 1) < 4294967296 := by
      have := Nat.mul_le_mul (show 2 * r + 1 ≤ 65535 by omega) (show 2 * r + 1 ≤ 65535 by omega)
      omega
    simp only []
    generalize hS : sigma.getD (get_default_sigma (2 * r + 1)) = S
    generalize hk : 2 * r + 1 = K at *
    have static : ∀ N, N ≤ 7 → ∃ b', (do b.apply_kernel N (← Kernel.new_gaussian N S)) = .ok b' ∧
        Shows b' w h (conv w h px N N (gaussWeight N S)) := by
      intro N hN
      obtain ⟨k, h1, h2⟩ := Kernel.new_gaussian_ok N S
      rw [h1, ok_bind]
      exact C10_apply_kernel s h2 (by omega)
    split
    · exact static 3 (by omega)
    · exact static 5 (by omega)
    · exact static 7 (by omega)
    · obtain ⟨k, h1, h2⟩ := KernelDyn.new_gaussian_ok K S hlt
      rw [h1, ok_bind]
      exact C10_apply_kernel_dyn s h2 hlt (by omega) (by omega)
  · intro hr
    by_cases h1 : r * 2 < 4294967296
    · rw [u32_ok h1, ok_bind, u32_ok (by omega), ok_bind]
      have hne : ∀ n, n < 65537 → r * 2 + 1 ≠ n := by omega
      simp only []
      split
      · omega
      · omega
      · omega
      · have : ¬ (r * 2 + 1) * (r * 2 + 1) < 4294967296 := by
          have := Nat.mul_le_mul (show 65537 ≤ r * 2 + 1 by omega) (show 65537 ≤ r * 2 + 1 by omega)
          omega
        unfold KernelDyn.new_gaussian
        simp only [u32, if_neg this]
        rfl
    · simp only [u32, if_neg h1]
      rfl

/-- A blurred constant image is that image (exact arithmetic, explicit or default sigma above 0). -/
theorem C12_blur_constant [Junk] {b : PixelBuffer (Col ℝ)} {w h : Nat} {c : Col ℝ}
    (s : Shows b w h fun _ _ => c) (r : Nat) (hr : r ≤ 32767) (sigma : Option ℝ)
    (hs : 0 < sigma.getD (r / 2)) : gaussian_blur b r sigma = .ok b := by
  obtain ⟨b', h1, h2⟩ := (C12_gaussian_blur s r sigma).1 hr
  rw [h1]
  congr 1
  apply h2.eq
  have hlt : (2 * r + 1) * (2 * r + 1) < 4294967296 := by
    have := Nat.mul_le_mul (show 2 * r + 1 ≤ 65535 by omega) (show 2 * r + 1 ≤ 65535 by omega)
    omega
  rw [C12_default_sigma]
  refine s.congr fun x y _ _ => ?_
  simp only [conv, perChannel, Exact.total, Exact.mul, ← Finset.sum_mul,
    gaussWeight_sum _ (Nat.succ_pos _) _ hs.ne', one_mul]

/-- The default sigma qualifies for every radius but 0. -/
example : (0 : ℝ) < (none : Option ℝ).getD ((3 : Nat) / 2) := by norm_num

/-! ## C46 Unsharp mask -/

/-- Every pixel `c` becomes `c + (c - blurred)·factor`, clamped, where `blurred` is the Gaussian
blur of that pixel. -/
theorem C46_unsharp {F : Type} [Scalar F] [LawfulScalar F] {b : PixelBuffer (Col F)} {w h px}
    (s : Shows b w h px) (r : Nat) (hr : r ≤ 32767) (factor : F) (sigma : Option F) :
    ∃ b' bl, gaussian_blur b r sigma = .ok bl ∧ unsharp b r factor sigma = .ok b' ∧
      ∃ blurred, Shows bl w h blurred ∧ Shows b' w h fun x y => perChannel fun ch =>
        clamp01 (ch (px x y) +. (ch (px x y) -. ch (blurred x y)) *. factor) := by
  obtain ⟨bl, h1, h2⟩ := (C12_gaussian_blur s r sigma).1 hr
  have hlt : (2 * r + 1) * (2 * r + 1) < 4294967296 := by
    have := Nat.mul_le_mul (show 2 * r + 1 ≤ 65535 by omega) (show 2 * r + 1 ≤ 65535 by omega)
    omega
  obtain ⟨k, h3, h4⟩ := KernelDyn.new_gaussian_ok (2 * r + 1)
    (sigma.getD (get_default_sigma (2 * r + 1))) hlt
  suffices hu : ∃ b', unsharp b r factor sigma = .ok b' ∧ Shows b' w h fun x y => perChannel fun ch =>
        clamp01 (ch (px x y) +. (ch (px x y) -. ch (conv w h px (2 * r + 1) (2 * r + 1)
        (gaussWeight (2 * r + 1) (sigma.getD (get_default_sigma (2 * r + 1)))) x y)) *. factor) by
    obtain ⟨b', h5, h6⟩ := hu
    exact ⟨b', bl, h1, h5, _, h2, h6⟩
  unfold unsharp
  rw [u32_ok (by omega), ok_bind, u32_ok (by omega), ok_bind, Nat.mul_comm r 2]
  simp only []
  rw [h3, ok_bind]
  apply C07_map_colors_enumerated s
  intro x y hx hy
  rw [KernelDyn.value_ok s h4 hlt (by omega) (by omega) x y hx hy, ok_bind]
  simp only [mul_swap _ (gaussWeight _ _ _ _)]
  rfl

/-- Factor 0 is the identity on images whose channels are between 0 and 1 (exact arithmetic). -/
theorem C46_factor_zero [Junk] {b : PixelBuffer (Col ℝ)} {w h px} (s : Shows b w h px)
    (hu : ∀ x y, x < w → y < h → Unit (px x y)) (r : Nat) (hr : r ≤ 32767) (sigma : Option ℝ) :
    unsharp b r 0 sigma = .ok b := by
  obtain ⟨b', bl, _, h1, _, _, h2⟩ := C46_unsharp s r hr 0 sigma
  rw [h1]
  congr 1
  apply h2.eq
  refine s.congr fun x y hx hy => ?_
  obtain ⟨u0, u1, u2, u3, u4, u5, u6, u7⟩ := hu x y hx hy
  simp only [perChannel, Exact.add, Exact.mul, mul_zero, add_zero]
  rw [Exact.clamp01_id, Exact.clamp01_id, Exact.clamp01_id, Exact.clamp01_id] <;> assumption

/-- A constant image is a fixed point, whatever the factor (exact arithmetic). -/
theorem C46_constant [Junk] {b : PixelBuffer (Col ℝ)} {w h : Nat} {c : Col ℝ}
    (s : Shows b w h fun _ _ => c) (hu : Unit c) (r : Nat) (hr : r ≤ 32767) (factor : ℝ)
    (sigma : Option ℝ) (hs : 0 < sigma.getD (r / 2)) : unsharp b r factor sigma = .ok b := by
  obtain ⟨b', bl, h0, h1, bp, h3, h2⟩ := C46_unsharp s r hr factor sigma
  rw [C12_blur_constant s r hr sigma hs] at h0
  cases h0
  rw [h1]
  congr 1
  apply h2.eq
  refine s.congr fun x y hx hy => ?_
  have e : bp x y = c := by
    have h4 := h3.getElem? hx hy
    rw [s.getElem? hx hy] at h4
    exact (Option.some.inj h4).symm
  obtain ⟨u0, u1, u2, u3, u4, u5, u6, u7⟩ := hu
  simp only [perChannel, e, Exact.add, Exact.sub, Exact.mul, sub_self, zero_mul, add_zero]
  rw [Exact.clamp01_id, Exact.clamp01_id, Exact.clamp01_id, Exact.clamp01_id] <;> assumption

/-- The result has the size of the image and every channel is in `[0, 1]` or NaN (binary32 and
exact). -/
theorem C46_range {F : Type} [Scalar F] [LawfulScalar F] {b : PixelBuffer (Col F)} {w h px}
    (s : Shows b w h px) (r : Nat) (hr : r ≤ 32767) (factor : F) (sigma : Option F) :
    ∃ b' px', unsharp b r factor sigma = .ok b' ∧ Shows b' w h px' ∧
      ∀ x y, ∀ v ∈ (px' x y).data,
        isNan v = true ∨ ((lit 0 <=. v) = true ∧ (v <=. lit 1) = true) := by
  obtain ⟨b', bl, _, h1, _, _, h2⟩ := C46_unsharp s r hr factor sigma
  refine ⟨b', _, h1, h2, fun x y v hv => ?_⟩
  simp only [Col.data, perChannel, List.mem_cons, List.not_mem_nil, or_false] at hv
  rcases hv with rfl | rfl | rfl | rfl <;> exact clamp01_range _

/-- Hypotheses met: a half-transparent grey 2 x 3 image and the default sigma of radius 1. -/
example [Junk] : Shows (⟨2, 3, List.replicate 6 ⟨0.5, 0.5, 0.5, 0.5⟩⟩ : PixelBuffer (Col ℝ)) 2 3
    (fun _ _ => ⟨0.5, 0.5, 0.5, 0.5⟩) ∧ Unit (⟨0.5, 0.5, 0.5, 0.5⟩ : Col ℝ) ∧
    (0 : ℝ) < (none : Option ℝ).getD ((1 : Nat) / 2) :=
  ⟨⟨rfl, rfl, by unfold ValidSize; omega, rfl⟩, by constructor <;> norm_num, by norm_num⟩

/-! ## C47 Edge detection -/

/-- The two direction tables of the Sobel operator. -/
def Spec.sobelX {F : Type} [Scalar F] (i j : Nat) : F :=
  lit ((1 - (i : ℚ)) * if j = 1 then 2 else 1)
/-- See `Spec.sobelX`. -/
def Spec.sobelY {F : Type} [Scalar F] (i j : Nat) : F :=
  lit ((1 - (j : ℚ)) * if i = 1 then 2 else 1)
/-- The Laplace table. -/
def Spec.laplace {F : Type} [Scalar F] (i j : Nat) : F := lit (if i = 1 ∧ j = 1 then -8 else 1)

theorem pixelOr_shows {C : Type} {b : PixelBuffer C} {w h px} (s : Shows b w h px) (d : C) {x y}
    (hx : x < w) (hy : y < h) : pixelOr d b x y = px x y := by
  unfold pixelOr
  rw [C03_get_pixel s, if_pos ⟨hx, hy⟩]

theorem compose_slice_congr {C : Type} (buffers : List (PixelBuffer C)) (d : C)
    (f g : Nat → Nat → List C → R C)
    (hfg : ∀ x y l, l.length = buffers.length → f x y l = g x y l) :
    compose_slice (m := R) buffers d f = compose_slice (m := R) buffers d g := by
  have len : ∀ {α β : Type} (q : α → R β) (l : List α) (r : List β), l.mapM q = .ok r →
      r.length = l.length := by
    intro α β q l
    induction l with
    | nil => intro r hr; cases hr; rfl
    | cons a t ih =>
      intro r hr
      rw [List.mapM_cons] at hr
      cases ha : q a with
      | error e => rw [ha] at hr; cases hr
      | ok v =>
        rw [ha, ok_bind] at hr
        cases ht : t.mapM q with
        | error e => rw [ht] at hr; cases hr
        | ok vs =>
          rw [ht] at hr
          cases hr
          simp [ih _ ht]
  unfold compose_slice try_compose_slice
  simp only [liftM, monadLift]
  congr 1
  refine bind_congr fun _ => bind_congr fun W => bind_congr fun H => ?_
  congr 1
  funext x y
  generalize hm : List.mapM (m := R) _ buffers = r
  cases r with
  | error e => rfl
  | ok l => rw [ok_bind, ok_bind, hfg x y l (len _ _ _ hm)]

/-- The Sobel result: the length of the gradient, per colour channel, clamped; opaque. -/
theorem C47_sobel {F : Type} [Scalar F] {b : PixelBuffer (Col F)} {w h px} (s : Shows b w h px) :
    ∃ b', edge_detection b .Sobel = .ok b' ∧ Shows b' w h fun x y =>
      let g := fun ch : Col F → F =>
        clamp01 (Scalar.sqrt (ch (conv w h px 3 3 sobelX x y) *. ch (conv w h px 3 3 sobelX x y)
          +. ch (conv w h px 3 3 sobelY x y) *. ch (conv w h px 3 3 sobelY x y)))
      ⟨g Col.c0, g Col.c1, g Col.c2, lit 1⟩ := by
  show ∃ b', edge_detection_sobel b = .ok b' ∧ _
  have k1 : (⟨[[lit 1, lit 0, lit (-1)], [lit 2, lit 0, lit (-2)], [lit 1, lit 0, lit (-1)]]⟩ :
      Kernel F).Holds 3 sobelX := by
    show [[_, _, _], [_, _, _], [_, _, _]] = [[_, _, _], [_, _, _], [_, _, _]]
    norm_num [sobelX]
  have k2 : (⟨[[lit 1, lit 2, lit 1], [lit 0, lit 0, lit 0], [lit (-1), lit (-2), lit (-1)]]⟩ :
      Kernel F).Holds 3 sobelY := by
    show [[_, _, _], [_, _, _], [_, _, _]] = [[_, _, _], [_, _, _], [_, _, _]]
    norm_num [sobelY]
  obtain ⟨bx, h1, s1⟩ := C10_apply_kernel s k1 (by norm_num)
  obtain ⟨by', h2, s2⟩ := C10_apply_kernel s k2 (by norm_num)
  unfold edge_detection_sobel
  rw [h1, ok_bind, h2, ok_bind]
  have : Inhabited (Col F) := ⟨Rgb.NONE⟩
  have wf1 := s1.wellFormed
  have wf2 := s2.wellFormed
  have hc := (C38_compose (Rgb.BLACK : Col F) [bx, by'] (by simp [wf1, wf2]) w h
    (by simp [s1.width, s2.width]) (by simp [s1.height, s2.height])
    (fun _ _ l => match sobelMerge l with | .ok c => c | .error _ => Rgb.NONE)).1 s.size
  obtain ⟨b', h3, s3⟩ := hc
  refine ⟨b', ?_, s3.congr fun x y hx hy => ?_⟩
  · rw [← h3]
    apply compose_slice_congr
    intro x y l hl
    match l, hl with
    | [a, b], _ => rfl
  · simp only [List.map_cons, List.map_nil, pixelOr_shows s1 _ hx hy, pixelOr_shows s2 _ hx hy]
    rfl

/-- The Laplace result: the weighted sum of the neighbourhood (not clamped), opaque. -/
theorem C47_laplace {F : Type} [Scalar F] {b : PixelBuffer (Col F)} {w h px} (s : Shows b w h px) :
    ∃ b', edge_detection b .Laplace = .ok b' ∧ Shows b' w h fun x y =>
      { conv w h px 3 3 Spec.laplace x y with alpha := lit 1 } := by
  show ∃ b', edge_detection_laplace b = .ok b' ∧ _
  have k1 : (⟨[[lit 1, lit 1, lit 1], [lit 1, lit (-8), lit 1], [lit 1, lit 1, lit 1]]⟩ :
      Kernel F).Holds 3 Spec.laplace := by
    show [[_, _, _], [_, _, _], [_, _, _]] = [[_, _, _], [_, _, _], [_, _, _]]
    simp [Spec.laplace]
  obtain ⟨b1, h1, s1⟩ := C10_apply_kernel s k1 (by norm_num)
  unfold edge_detection_laplace
  rw [h1, ok_bind]
  exact ⟨_, rfl, C07_map_colors s1 _⟩

/-- Edge detection of a constant image is black and opaque everywhere (exact arithmetic). -/
theorem C47_constant [Junk] {b : PixelBuffer (Col ℝ)} {w h : Nat} {c : Col ℝ}
    (s : Shows b w h fun _ _ => c) (mode : EdgeDetection) :
    ∃ b', edge_detection b mode = .ok b' ∧ Shows b' w h fun _ _ => ⟨0, 0, 0, 1⟩ := by
  have z1 : ∑ j ∈ Finset.range 3, ∑ i ∈ Finset.range 3, (sobelX i j : ℝ) = 0 := by
    simp [Finset.sum_range_succ, sobelX, Exact.lit]; norm_num
  have z2 : ∑ j ∈ Finset.range 3, ∑ i ∈ Finset.range 3, (sobelY i j : ℝ) = 0 := by
    simp [Finset.sum_range_succ, sobelY, Exact.lit]; norm_num
  have z3 : ∑ j ∈ Finset.range 3, ∑ i ∈ Finset.range 3, (Spec.laplace i j : ℝ) = 0 := by
    simp [Finset.sum_range_succ, Spec.laplace, Exact.lit]; norm_num
  have zero : ∀ (wt : Nat → Nat → ℝ), ∑ j ∈ Finset.range 3, ∑ i ∈ Finset.range 3, wt i j = 0 →
      ∀ x y, conv w h (fun _ _ => c) 3 3 wt x y = ⟨0, 0, 0, 0⟩ := by
    intro wt hz x y
    simp only [conv, perChannel, Exact.total, Exact.mul, ← Finset.sum_mul, hz, zero_mul]
  cases mode with
  | Sobel =>
    obtain ⟨b', h1, h2⟩ := C47_sobel s
    refine ⟨b', h1, h2.congr fun x y _ _ => ?_⟩
    simp only [zero _ z1, zero _ z2]
    ex_simp
    simp [Exact.sqrt, Exact.clamp01]
  | Laplace =>
    obtain ⟨b', h1, h2⟩ := C47_laplace s
    refine ⟨b', h1, h2.congr fun x y _ _ => ?_⟩
    simp only [zero _ z3]
    ex_simp

end D10
