import Verif.Props.Recolor
import Verif.Props.Symmetry

/-!
# Recolouring before or after; negatives; superposition (C99)

Operations that move pixels commute with everything that is done to each pixel on its own. Operations
that mix pixels with weights of sum 1 commute, in exact arithmetic, with taking the negative; weights of
sum 0 see no difference but the sign. Convolution is linear.
-/

namespace D10
open Spec PixelBuffer
open Scalar (lit)

/-! ## Moving pixels -/

section
variable {T U : Type}

/-- C99: flips, quarter turns and crops of an image recoloured by any `f` (the fillers `d`, `e` never
show). -/
theorem C99_moves (d : T) (e : U) (f : T → U) {b : PixelBuffer T} (hb : WellFormed b) :
    flip_horizontal e (b.map_colors f) = (flip_horizontal d b).map (·.map_colors f) ∧
    flip_vertical e (b.map_colors f) = (flip_vertical d b).map (·.map_colors f) ∧
    rotate90 e (b.map_colors f) = (rotate90 d b).map (·.map_colors f) ∧
    rotate180 e (b.map_colors f) = (rotate180 d b).map (·.map_colors f) ∧
    rotate270 e (b.map_colors f) = (rotate270 d b).map (·.map_colors f) ∧
    ∀ ox oy rw rh, crop e (b.map_colors f) ox oy rw rh = (crop d b ox oy rw rh).map (·.map_colors f) := by
  obtain ⟨px, s⟩ := wf_shows d hb
  have s1 := C07_map_colors s f
  refine ⟨?_, ?_, ?_, ?_, ?_, fun ox oy rw rh => ?_⟩
  · obtain ⟨b1, e1, t1⟩ := C13_flip_horizontal d s
    obtain ⟨b2, e2, t2⟩ := C13_flip_horizontal e s1
    rw [e1, e2]; exact congrArg Except.ok (t2.eq (C07_map_colors t1 f))
  · obtain ⟨b1, e1, t1⟩ := C13_flip_vertical d s
    obtain ⟨b2, e2, t2⟩ := C13_flip_vertical e s1
    rw [e1, e2]; exact congrArg Except.ok (t2.eq (C07_map_colors t1 f))
  · obtain ⟨b1, e1, t1⟩ := C14_rotate90 d s
    obtain ⟨b2, e2, t2⟩ := C14_rotate90 e s1
    rw [e1, e2]; exact congrArg Except.ok (t2.eq (C07_map_colors t1 f))
  · obtain ⟨b1, e1, t1⟩ := C14_rotate180 d s
    obtain ⟨b2, e2, t2⟩ := C14_rotate180 e s1
    rw [e1, e2]; exact congrArg Except.ok (t2.eq (C07_map_colors t1 f))
  · obtain ⟨b1, e1, t1⟩ := C14_rotate270 d s
    obtain ⟨b2, e2, t2⟩ := C14_rotate270 e s1
    rw [e1, e2]; exact congrArg Except.ok (t2.eq (C07_map_colors t1 f))
  · obtain ⟨b1, e1, t1⟩ := C16_crop d s ox oy rw rh
    obtain ⟨b2, e2, t2⟩ := C16_crop e s1 ox oy rw rh
    rw [e1, e2]
    refine congrArg Except.ok ?_
    split_ifs at t1 t2
    · exact t2.eq (C07_map_colors t1 f)
    · exact t2.eq (C07_map_colors t1 f)

/-- C99: the interlace effect. -/
theorem C99_interlace (d : T) (f : T → U) {b : PixelBuffer T} (hb : WellFormed b) (off : Nat)
    (hfit : b.width + off ≤ 2147483648) (hoff : off < 2147483648) :
    interlace (b.map_colors f) off = (interlace b off).map (·.map_colors f) := by
  obtain ⟨px, s⟩ := wf_shows d hb
  obtain ⟨b1, e1, t1⟩ := C22_interlace s off hoff hfit
  obtain ⟨b2, e2, t2⟩ := C22_interlace (C07_map_colors s f) off hoff hfit
  rw [e1, e2]
  refine congrArg Except.ok ((t2.congr fun x y _ _ => ?_).eq (C07_map_colors t1 f))
  split_ifs <;> rfl

end

section
variable {F : Type} [Scalar F] [Coords F]

/-- C99: resizing with the nearest pixel, in every arithmetic. -/
theorem C99_resize_nearest (f : Col F → Col F) (nw nh : Nat) {b : PixelBuffer (Col F)} (hb : WellFormed b)
    (h0 : 0 < b.width) :
    resize (b.map_colors f) nw nh .Nearest = (resize b nw nh .Nearest).map (·.map_colors f) := by
  obtain ⟨px, s⟩ := wf_shows Rgb.NONE hb
  have s1 := C07_map_colors s f
  by_cases hne : nw = b.width ∧ nh = b.height
  · rw [hne.1, hne.2, C18_resize_same b .Nearest]
    exact C18_resize_same (b.map_colors f) .Nearest
  by_cases hv : ValidSize nw nh
  · obtain ⟨b', e, t⟩ := C18_resize s h0 nw nh hv hne .Nearest (by simp)
    obtain ⟨b₁, e₁, t₁⟩ := C18_resize s1 h0 nw nh hv hne .Nearest (by simp)
    rw [e, e₁]
    exact congrArg Except.ok (t₁.eq (C07_map_colors t f))
  · rw [C18_resize_invalid hb nw nh hv, C18_resize_invalid s1.wellFormed nw nh hv]; rfl

/-- C99: rotating with the nearest pixel, if the background is recoloured too. -/
theorem C99_rotate_nearest (f : Col F → Col F) (angle : F) (bg : Col F) {b : PixelBuffer (Col F)}
    (hb : WellFormed b) :
    rotate (b.map_colors f) angle (f bg) .Nearest = (rotate b angle bg .Nearest).map (·.map_colors f) := by
  obtain ⟨px, s⟩ := wf_shows Rgb.NONE hb
  have s1 := C07_map_colors s f
  cases ha : Scalar.abs (angle -. lit 360) <. lit (1 / 8388608) with
  | true => rw [C21_rotate_360 _ _ _ _ ha, C21_rotate_360 _ _ _ _ ha]; rfl
  | false =>
    obtain ⟨b', e, t⟩ := C21_rotate s angle bg .Nearest ha
    obtain ⟨b₁, e₁, t₁⟩ := C21_rotate s1 angle (f bg) .Nearest ha
    rw [e, e₁]
    refine congrArg Except.ok ((t₁.congr fun x y _ _ => ?_).eq (C07_map_colors t f))
    unfold rotated
    simp only
    split_ifs <;> rfl

end

/-! ## Negatives -/

section
variable [Junk]

theorem invert_exact (c : Col ℝ) : Rgb.invert c = ⟨1 - c.c0, 1 - c.c1, 1 - c.c2, c.alpha⟩ := by
  unfold Rgb.invert; ex_simp

theorem invert_c0 (c : Col ℝ) : (Rgb.invert c).c0 = 1 - c.c0 := by rw [invert_exact]
theorem invert_c1 (c : Col ℝ) : (Rgb.invert c).c1 = 1 - c.c1 := by rw [invert_exact]
theorem invert_c2 (c : Col ℝ) : (Rgb.invert c).c2 = 1 - c.c2 := by rw [invert_exact]
theorem invert_alpha (c : Col ℝ) : (Rgb.invert c).alpha = c.alpha := by rw [invert_exact]

/-- A colour computed by the same recipe from each channel, where the recipe turns `1 - v` into `1 - `
what it makes of `v`. -/
theorem perChannel_invert (g g' : (Col ℝ → ℝ) → ℝ) (h0 : g' Col.c0 = 1 - g Col.c0) (h1 : g' Col.c1 = 1 - g Col.c1)
    (h2 : g' Col.c2 = 1 - g Col.c2) (ha : g' Col.alpha = g Col.alpha) :
    perChannel g' = Rgb.invert (perChannel g) := by
  rw [invert_exact]
  unfold perChannel
  rw [h0, h1, h2, ha]

theorem clamp_one_sub (v : ℝ) : clamp01 (1 - v) = 1 - clamp01 v := by
  rw [Exact.clamp01, Exact.clamp01]
  rcases le_total v 0 with h | h
  · rw [min_eq_left (by linarith), max_eq_right zero_le_one, min_eq_right (h.trans zero_le_one), max_eq_left h]; simp
  · rcases le_total v 1 with h' | h'
    · rw [min_eq_right (by linarith), max_eq_right (by linarith), min_eq_right h', max_eq_right h]
    · rw [min_eq_right (by linarith), max_eq_left (by linarith), min_eq_left h', max_eq_right zero_le_one]; simp

theorem conv_invert (w h : Nat) (px : Nat → Nat → Col ℝ) (W H : Nat) (wt : Nat → Nat → ℝ)
    (hS : ∑ j ∈ Finset.range H, ∑ i ∈ Finset.range W, wt i j = 1) (x y : Nat) :
    conv w h (fun x y => Rgb.invert (px x y)) W H wt x y = Rgb.invert (conv w h px W H wt x y) := by
  rw [conv_exact, conv_exact]
  have k : ∀ v : Nat → Nat → ℝ, ∑ j ∈ Finset.range H, ∑ i ∈ Finset.range W, wt i j * (1 - v i j)
      = 1 - ∑ j ∈ Finset.range H, ∑ i ∈ Finset.range W, wt i j * v i j := by
    intro v
    refine Eq.trans ?_ (congrArg (· - _) hS)
    rw [← Finset.sum_sub_distrib]
    refine Finset.sum_congr rfl fun j _ => ?_
    rw [← Finset.sum_sub_distrib]
    exact Finset.sum_congr rfl fun i _ => by ring
  apply perChannel_invert <;> simp only [invert_c0, invert_c1, invert_c2, invert_alpha]
  · exact k _
  · exact k _
  · exact k _

/-- C99: a convolution whose weights add up to 1. -/
theorem C99_convolution {k : Kernel ℝ} {N : Nat} {wt : Nat → Nat → ℝ} (hk : k.Holds N wt)
    (hN : N ≤ 1073741824) (hS : ∑ j ∈ Finset.range N, ∑ i ∈ Finset.range N, wt i j = 1) :
    CommutesWith Rgb.invert fun b => b.apply_kernel N k :=
  commutesWith_same (fun _ _ _ _ s => C10_apply_kernel s hk hN) fun w h px x y => conv_invert w h px N N wt hS x y

theorem C99_convolution_dyn {k : KernelDyn ℝ} {W H : Nat} {wt : Nat → Nat → ℝ} (hk : k.Holds W H wt)
    (hlt : W * H < 4294967296) (hW : W ≤ 1073741824) (hH : H ≤ 1073741824)
    (hS : ∑ j ∈ Finset.range H, ∑ i ∈ Finset.range W, wt i j = 1) :
    CommutesWith Rgb.invert fun b => b.apply_kernel_dyn k :=
  commutesWith_same (fun _ _ _ _ s => C10_apply_kernel_dyn s hk hlt hW hH)
    fun w h px x y => conv_invert w h px W H wt hS x y

/-- The width of the bell that is used: the one given, or half the radius. -/
noncomputable def bellWidth (r : Nat) (sigma : Option ℝ) : ℝ := sigma.getD (r / 2)

theorem blurred_invert (w h : Nat) (px : Nat → Nat → Col ℝ) (r : Nat) (sigma : Option ℝ)
    (h0 : bellWidth r sigma ≠ 0) (x y : Nat) :
    blurred w h (fun x y => Rgb.invert (px x y)) r sigma x y = Rgb.invert (blurred w h px r sigma x y) := by
  unfold blurred
  refine conv_invert w h px _ _ _ (gaussWeight_sum _ (by omega) _ ?_) x y
  have : sigma.getD ((lit ((2 * r + 1 : Nat) : ℚ) -. lit 1) /. lit 4) = bellWidth r sigma := by
    unfold bellWidth
    congr 1
    ex_simp
    push_cast
    ring
  rw [this]; exact h0

/-- C99: Gaussian blur. -/
theorem C99_gaussian_blur (r : Nat) (hr : r ≤ 32767) (sigma : Option ℝ) (h0 : bellWidth r sigma ≠ 0) :
    CommutesWith Rgb.invert fun b => gaussian_blur b r sigma :=
  commutesWith_same (fun _ _ _ _ s => blur_ok s r hr sigma) fun w h px x y => blurred_invert w h px r sigma h0 x y

/-- C99: unsharp mask. -/
theorem C99_unsharp (r : Nat) (hr : r ≤ 32767) (factor : ℝ) (sigma : Option ℝ) (h0 : bellWidth r sigma ≠ 0) :
    CommutesWith Rgb.invert fun b => unsharp b r factor sigma := by
  refine commutesWith_same (fun _ _ _ _ s => sharpen_ok s r hr factor sigma) fun w h px x y => ?_
  unfold sharpened
  simp only [blurred_invert w h px r sigma h0]
  have k : ∀ u v : ℝ, Scalar.clamp (lit 0) (lit 1) (1 - u +. (1 - u -. (1 - v)) *. factor)
      = 1 - Scalar.clamp (lit 0) (lit 1) (u +. (u -. v) *. factor) := by
    intro u v
    have := clamp_one_sub (u + (u - v) * factor)
    unfold clamp01 at this
    ex_simp
    ex_simp at this
    rw [← this]
    congr 1; ring
  apply perChannel_invert <;> simp only [invert_c0, invert_c1, invert_c2, invert_alpha, k]

theorem conv_invert_zero (w h : Nat) (px : Nat → Nat → Col ℝ) (W H : Nat) (wt : Nat → Nat → ℝ)
    (hS : ∑ j ∈ Finset.range H, ∑ i ∈ Finset.range W, wt i j = 0) (x y : Nat) :
    let p := conv w h (fun x y => Rgb.invert (px x y)) W H wt x y
    let q := conv w h px W H wt x y
    p.c0 = -q.c0 ∧ p.c1 = -q.c1 ∧ p.c2 = -q.c2 := by
  rw [conv_exact, conv_exact]
  simp only [invert_exact]
  have k : ∀ v : Nat → Nat → ℝ, ∑ j ∈ Finset.range H, ∑ i ∈ Finset.range W, wt i j * (1 - v i j)
      = - ∑ j ∈ Finset.range H, ∑ i ∈ Finset.range W, wt i j * v i j := by
    intro v
    rw [← zero_sub, ← hS, ← Finset.sum_sub_distrib]
    refine Finset.sum_congr rfl fun j _ => ?_
    rw [← Finset.sum_sub_distrib]
    exact Finset.sum_congr rfl fun i _ => by ring
  exact ⟨k _, k _, k _⟩

theorem sobel_sums : (∑ j ∈ Finset.range 3, ∑ i ∈ Finset.range 3, (sobelX i j : ℝ) = 0) ∧
    (∑ j ∈ Finset.range 3, ∑ i ∈ Finset.range 3, (sobelY i j : ℝ) = 0) ∧
    ∑ j ∈ Finset.range 3, ∑ i ∈ Finset.range 3, (Spec.laplace i j : ℝ) = 0 := by
  refine ⟨?_, ?_, ?_⟩ <;> simp [Finset.sum_range_succ, sobelX, sobelY, Spec.laplace] <;> ex_simp <;> norm_num

/-- C99: the Sobel edges of the negative are those of the image; the Laplace edges change their sign. -/
theorem C99_edge_detection {b : PixelBuffer (Col ℝ)} (hb : WellFormed b) :
    edge_detection (b.map_colors Rgb.invert) .Sobel = edge_detection b .Sobel ∧
    edge_detection (b.map_colors Rgb.invert) .Laplace
      = (edge_detection b .Laplace).map (·.map_colors fun c => ⟨-c.c0, -c.c1, -c.c2, c.alpha⟩) := by
  obtain ⟨px, s⟩ := wf_shows Rgb.NONE hb
  have s1 := C07_map_colors s Rgb.invert
  obtain ⟨sx, sy, sl⟩ := sobel_sums
  constructor
  · obtain ⟨b', e, t⟩ := C47_sobel s
    obtain ⟨b₁, e₁, t₁⟩ := C47_sobel s1
    rw [e, e₁]
    refine congrArg Except.ok ((t₁.congr fun x y _ _ => ?_).eq t)
    obtain ⟨x0, x1, x2⟩ := conv_invert_zero b.width b.height px 3 3 sobelX sx x y
    obtain ⟨y0, y1, y2⟩ := conv_invert_zero b.width b.height px 3 3 sobelY sy x y
    simp only [x0, x1, x2, y0, y1, y2]
    ex_simp
    simp only [neg_mul_neg]
  · obtain ⟨b', e, t⟩ := C47_laplace s
    obtain ⟨b₁, e₁, t₁⟩ := C47_laplace s1
    rw [e, e₁]
    refine congrArg Except.ok ((t₁.congr fun x y _ _ => ?_).eq (C07_map_colors t _))
    obtain ⟨x0, x1, x2⟩ := conv_invert_zero b.width b.height px 3 3 Spec.laplace sl x y
    simp only [x0, x1, x2]

theorem bilinear_invert (w h : Nat) (px : Nat → Nat → Col ℝ) (x y : ℝ) :
    bilinear w h (fun x y => Rgb.invert (px x y)) x y = Rgb.invert (bilinear w h px x y) := by
  unfold bilinear at'
  have k : ∀ a b c d s t : ℝ, clamp01 (lerp (lerp (1 - a) (1 - b) s) (lerp (1 - c) (1 - d) s) t)
      = 1 - clamp01 (lerp (lerp a b s) (lerp c d s) t) := by
    intro a b c d s t
    rw [← clamp_one_sub]
    unfold lerp
    ex_simp
    congr 1; ring
  apply perChannel_invert <;> simp only [invert_c0, invert_c1, invert_c2, invert_alpha, k]

theorem bicubic_invert (w h : Nat) (px : Nat → Nat → Col ℝ) (x y : ℝ) :
    bicubic w h (fun x y => Rgb.invert (px x y)) x y = Rgb.invert (bicubic w h px x y) := by
  unfold bicubic at'
  have c : ∀ a b c d t : ℝ, cubic (1 - a) (1 - b) (1 - c) (1 - d) t = 1 - cubic a b c d t := by
    intro a b c d t
    unfold cubic
    ex_simp
    ring
  apply perChannel_invert <;> simp only [invert_c0, invert_c1, invert_c2, invert_alpha, c, clamp_one_sub]

/-- C99: resizing with the nearest pixel, bilinear and bicubic, and automatically unless both sides
shrink. -/
theorem C99_resize (filter : FilterMode) (nw nh : Nat) {b : PixelBuffer (Col ℝ)} (hb : WellFormed b)
    (h0 : 0 < b.width) (hf : filter ≠ .Lanczos3)
    (hauto : filter = .Auto → b.width ≤ 134217728 ∧ b.height ≤ 134217728 ∧ (b.width ≤ nw ∨ b.height ≤ nh)) :
    resize (b.map_colors Rgb.invert) nw nh filter = (resize b nw nh filter).map (·.map_colors Rgb.invert) := by
  obtain ⟨px, s⟩ := wf_shows Rgb.NONE hb
  have s1 := C07_map_colors s Rgb.invert
  by_cases hne : nw = b.width ∧ nh = b.height
  · rw [hne.1, hne.2, C18_resize_same b filter]
    exact C18_resize_same (b.map_colors _) filter
  by_cases hv : ValidSize nw nh
  · obtain ⟨b', e, t⟩ := C18_resize s h0 nw nh hv hne filter fun h => ⟨(hauto h).1, (hauto h).2.1⟩
    obtain ⟨b₁, e₁, t₁⟩ := C18_resize s1 h0 nw nh hv hne filter fun h => ⟨(hauto h).1, (hauto h).2.1⟩
    rw [e, e₁]
    refine congrArg Except.ok ((t₁.congr fun x y _ _ => ?_).eq (C07_map_colors t _))
    cases filter with
    | Nearest => rfl
    | Bilinear => exact bilinear_invert _ _ px _ _
    | Bicubic => exact bicubic_invert _ _ px _ _
    | Lanczos3 => exact absurd rfl hf
    | Auto =>
      unfold resized
      simp only
      rw [if_pos (hauto rfl).2.2, if_pos (hauto rfl).2.2]
      exact bicubic_invert _ _ px _ _
  · rw [C18_resize_invalid hb nw nh hv, C18_resize_invalid s1.wellFormed nw nh hv]; rfl

/-- C99: rotation with every filter but Lanczos, if the background is inverted too. -/
theorem C99_rotate (angle : ℝ) (bg : Col ℝ) (filter : FilterMode) (hf : filter ≠ .Lanczos3)
    {b : PixelBuffer (Col ℝ)} (hb : WellFormed b) :
    rotate (b.map_colors Rgb.invert) angle (Rgb.invert bg) filter
      = (rotate b angle bg filter).map (·.map_colors Rgb.invert) := by
  obtain ⟨px, s⟩ := wf_shows Rgb.NONE hb
  have s1 := C07_map_colors s Rgb.invert
  cases ha : Scalar.abs (angle -. lit 360) <. lit (1 / 8388608) with
  | true => rw [C21_rotate_360 _ _ _ _ ha, C21_rotate_360 _ _ _ _ ha]; rfl
  | false =>
    obtain ⟨b', e, t⟩ := C21_rotate s angle bg filter ha
    obtain ⟨b₁, e₁, t₁⟩ := C21_rotate s1 angle (Rgb.invert bg) filter ha
    rw [e, e₁]
    refine congrArg Except.ok ((t₁.congr fun x y _ _ => ?_).eq (C07_map_colors t _))
    unfold rotated
    simp only
    split_ifs
    · cases filter with
      | Nearest => rfl
      | Bilinear => exact bilinear_invert _ _ px _ _
      | Bicubic => exact bicubic_invert _ _ px _ _
      | Lanczos3 => exact absurd rfl hf
      | Auto => exact bicubic_invert _ _ px _ _
    · rfl

/-! ## Superposition -/

/-- C99: convolution is linear: convolving `u` times one image plus `v` times another gives `u` times
the one result plus `v` times the other. -/
theorem C99_linear {a b c : PixelBuffer (Col ℝ)} {w h p q} (sa : Shows a w h p) (sb : Shows b w h q) (u v : ℝ)
    (sc : Shows c w h fun x y => ⟨u * (p x y).c0 + v * (q x y).c0, u * (p x y).c1 + v * (q x y).c1,
      u * (p x y).c2 + v * (q x y).c2, u * (p x y).alpha + v * (q x y).alpha⟩)
    {k : KernelDyn ℝ} {W H : Nat} {wt : Nat → Nat → ℝ} (hk : k.Holds W H wt)
    (hlt : W * H < 4294967296) (hW : W ≤ 1073741824) (hH : H ≤ 1073741824) :
    ∃ a' b' c' p' q', a.apply_kernel_dyn k = .ok a' ∧ b.apply_kernel_dyn k = .ok b' ∧
      c.apply_kernel_dyn k = .ok c' ∧ Shows a' w h p' ∧ Shows b' w h q' ∧
      Shows c' w h fun x y => ⟨u * (p' x y).c0 + v * (q' x y).c0, u * (p' x y).c1 + v * (q' x y).c1,
        u * (p' x y).c2 + v * (q' x y).c2, u * (p' x y).alpha + v * (q' x y).alpha⟩ := by
  obtain ⟨a', e1, t1⟩ := C10_apply_kernel_dyn sa hk hlt hW hH
  obtain ⟨b', e2, t2⟩ := C10_apply_kernel_dyn sb hk hlt hW hH
  obtain ⟨c', e3, t3⟩ := C10_apply_kernel_dyn sc hk hlt hW hH
  refine ⟨a', b', c', _, _, e1, e2, e3, t1, t2, t3.congr fun x y _ _ => ?_⟩
  simp only [conv_exact, perChannel]
  have k : ∀ f g : Nat → Nat → ℝ, ∑ j ∈ Finset.range H, ∑ i ∈ Finset.range W, wt i j * (u * f i j + v * g i j)
      = u * ∑ j ∈ Finset.range H, ∑ i ∈ Finset.range W, wt i j * f i j
        + v * ∑ j ∈ Finset.range H, ∑ i ∈ Finset.range W, wt i j * g i j := by
    intro f g
    simp only [Finset.mul_sum, ← Finset.sum_add_distrib]
    exact Finset.sum_congr rfl fun j _ => Finset.sum_congr rfl fun i _ => by ring
  congr 1 <;> exact k _ _

/-! ## Examples -/

/-- A box blur has weights of sum 1; its 2 x 2 image meets the hypotheses. -/
example : ∑ j ∈ Finset.range 3, ∑ i ∈ Finset.range 3, (fun _ _ => 1 / 9 : Nat → Nat → ℝ) i j = 1 := by
  simp; norm_num

example : bellWidth 3 none ≠ 0 := by unfold bellWidth; norm_num

example : WellFormed (⟨2, 1, [⟨0, 1/2, 1, 1⟩, ⟨1, 1/4, 0, 1/2⟩]⟩ : PixelBuffer (Col ℝ)) :=
  ⟨.inr ⟨by norm_num, by norm_num, by norm_num⟩, rfl⟩

end
end D10
