import Verif.Lemmas.Local
import Verif.Props.Convolution
import Verif.Props.Smooth
import Verif.Props.Drawing

/-!
# How far an operation looks (C91)

In every arithmetic: the statements are about equality of the results, bit for bit in binary32.
-/

namespace D10
open Spec PixelBuffer
open Scalar (lit)

section
variable {F : Type} [Scalar F]

theorem conv_local (W H r : Nat) (hW : W / 2 ≤ r) (hW' : W ≤ W / 2 + r + 1) (hH : H / 2 ≤ r)
    (hH' : H ≤ H / 2 + r + 1) (wt : Nat → Nat → F) :
    LocalRecipe r (fun w h px x y => conv w h px W H wt x y) := by
  intro w h px x y w' h' px' x' y' v
  show conv w h px W H wt x y = conv w' h' px' W H wt x' y'
  unfold conv total
  refine congrArg _ (funext fun ch => congrArg _ (rows_congr fun i j hi hj => ?_))
  have := v.same ((i : Int) - (W / 2 : Nat)) ((j : Int) - (H / 2 : Nat)) (by omega) (by omega) (by omega) (by omega)
  simp only [← Int.add_sub_assoc] at this
  rw [this]

theorem blurred_local (r : Nat) (sigma : Option F) :
    LocalRecipe r (fun w h px x y => blurred w h px r sigma x y) :=
  conv_local (2 * r + 1) (2 * r + 1) r (by omega) (by omega) (by omega) (by omega) _

theorem sharpened_local (r : Nat) (factor : F) (sigma : Option F) :
    LocalRecipe r (fun w h px x y => sharpened w h px r factor sigma x y) :=
  (LocalRecipe.pixel.map2 (blurred_local r sigma) fun p q =>
    perChannel fun ch => Scalar.clamp (lit 0) (lit 1) (ch p +. (ch p -. ch q) *. factor)).mono (by omega)

theorem despeckled_local (t : F) (amount : Nat) :
    LocalRecipe 1 (fun w h px x y => despeckled w h px t amount x y) :=
  (LocalRecipe.pixel.map2 (LocalRecipe.window (N := 3) (r := 1) (by omega) (by omega)) fun p l =>
    let around := l.flatten
    let darks := around.countP (dark t)
    let brights := around.filter (bright t)
    if dark t p ∧ darks ≤ amount then
      let mean := fun ch => addUp (brights.map ch) /. lit ((9 - darks : Nat) : ℚ)
      Rgb.new_with_alpha (mean Col.c0) (mean Col.c1) (mean Col.c2) p.alpha
    else p)

theorem smoothed_local (r : Nat) (wc : Bool) :
    LocalRecipe r (fun w h px x y => smoothed (F := F) w h px r wc x y) := by
  intro w h px x y w' h' px' x' y' v
  have hp : px x y = px' x' y' := LocalRecipe.pixel _ _ _ _ _ _ _ _ _ _ (v.mono (by omega))
  have hl : picked w h px r x y = picked w' h' px' r x' y' := by
    unfold picked
    rw [List.flatMap_def, List.flatMap_def]
    congr 1
    refine List.map_congr_left fun i hi => List.map_congr_left fun d hd => ?_
    have hi := List.mem_range.1 hi
    obtain ⟨dx, dy⟩ := d
    simp only [List.mem_cons, Prod.mk.injEq, List.not_mem_nil, or_false] at hd
    have b1 : -(r : Int) ≤ dx * (i + 1) ∧ dx * (i + 1) ≤ r ∧ -(r : Int) ≤ dy * (i + 1) ∧ dy * (i + 1) ≤ r := by
      rcases hd with ⟨rfl, rfl⟩ | ⟨rfl, rfl⟩ | ⟨rfl, rfl⟩ | ⟨rfl, rfl⟩ <;> omega
    have v1 := v.same (dx * (i + 1)) (dy * (i + 1)) (by omega) (by omega) (by omega) (by omega)
    have v2 := v.same (-(dx * (i + 1))) (-(dy * (i + 1))) (by omega) (by omega) (by omega) (by omega)
    simp only [Int.add_neg_eq_sub] at v2
    simp only [hp, v1, v2]
  unfold smoothed
  simp only [hp, hl]

theorem sketch_local (r : Nat) : LocalRecipe (max 5 r + 3) (fun w h px x y => sketch (F := F) w h px r x y) := by
  have light := LocalRecipe.pixel.map fun c : Col F => Rgb.map_channels c fun v => v *. lit 0.8 +. lit 0.2
  have first := (((sharpened_local 4 (lit 4) (some (lit 5))).comp
    ((blurred_local 1 none).comp light))).map fun c => Rgb.with_contrast c (lit 1.05)
  have second := ((blurred_local r none).comp light).map Rgb.invert
  have drawn := first.map2 second fun c1 c2 => let d := ink c1 c2; Rgb.new d d d
  exact ((despeckled_local (lit 0.15) 1).comp ((sharpened_local 2 (lit 1) none).comp drawn)).mono (by omega)

theorem reduced_local (r : Nat) :
    LocalRecipe (max 5 r + 6) (fun w h px x y => reduced (F := F) w h (sketch w h px r) px x y) := by
  let hsv := fun (c : Col F) => convert .rgb .hsv c
  have a := (sketch_local r).map2 ((blurred_local 2 none).comp (LocalRecipe.pixel.map paled))
    fun d p => to_rgb .hsv { hsv d with c1 := (hsv p).c1 }
  have b := a.map2 (blurred_local 3 none) fun d p => to_rgb .hsv { hsv d with c0 := (hsv p).c0 }
  have c := b.map2 (blurred_local 4 none) fun d p =>
    to_rgb .hsv { hsv d with c2 := (hsv d).c2 *. (hsv p).c2 }
  exact (((sharpened_local 3 (lit 1.5) none).comp c).map fun p =>
    Rgb.with_vibrance (Rgb.with_gamma (Rgb.with_saturation p (lit 1.3)) (lit 1.1)) (lit 0.3)).mono (by omega)

/-! ## The operations -/

/-- C91: whatever is done to every pixel on its own looks at no other pixel. -/
theorem C91_pointwise (f : Col F → Col F) :
    DependsWithin 0 (fun b : PixelBuffer (Col F) => .ok (b.map_colors f)) ∧
    Tiles 0 (fun b : PixelBuffer (Col F) => .ok (b.map_colors f)) :=
  (LocalRecipe.pixel.map f).ops Rgb.NONE (fun _ _ _ _ s => ⟨_, rfl, C07_map_colors s f⟩)

/-- C91: a convolution with a table of `2r + 1` columns and rows looks `r` pixels far. -/
theorem C91_convolution (r : Nat) (hr : r < 1000) {k : Kernel F} {wt : Nat → Nat → F} (hk : k.Holds (2 * r + 1) wt) :
    DependsWithin r (fun b => b.apply_kernel (2 * r + 1) k) ∧ Tiles r (fun b => b.apply_kernel (2 * r + 1) k) :=
  (conv_local (2 * r + 1) (2 * r + 1) r (by omega) (by omega) (by omega) (by omega) wt).ops Rgb.NONE
    (fun _ _ _ _ s => C10_apply_kernel s hk (by omega))

/-- C91: so does a convolution with a table whose size is given at run time. -/
theorem C91_convolution_dyn [LawfulScalar F] (r W H : Nat) (hW : W ≤ 2 * r + 1) (hH : H ≤ 2 * r + 1) (hr : r < 1000)
    {k : KernelDyn F} {wt : Nat → Nat → F} (hk : k.Holds W H wt) :
    DependsWithin r (fun b => b.apply_kernel_dyn k) ∧ Tiles r (fun b => b.apply_kernel_dyn k) :=
  (conv_local W H r (by omega) (by omega) (by omega) (by omega) wt).ops Rgb.NONE
    (fun _ _ _ _ s => C10_apply_kernel_dyn s hk (by
      have : W * H ≤ 2000 * 2000 := Nat.mul_le_mul (by omega) (by omega)
      omega) (by omega) (by omega))

/-- C91: Gaussian blur. -/
theorem C91_gaussian_blur [LawfulScalar F] (r : Nat) (hr : r ≤ 32767) (sigma : Option F) :
    DependsWithin r (fun b => gaussian_blur b r sigma) ∧ Tiles r (fun b => gaussian_blur b r sigma) :=
  (blurred_local r sigma).ops Rgb.NONE (fun _ _ _ _ s => blur_ok s r hr sigma)

/-- C91: unsharp mask. -/
theorem C91_unsharp [LawfulScalar F] (r : Nat) (hr : r ≤ 32767) (factor : F) (sigma : Option F) :
    DependsWithin r (fun b => unsharp b r factor sigma) ∧ Tiles r (fun b => unsharp b r factor sigma) :=
  (sharpened_local r factor sigma).ops Rgb.NONE (fun _ _ _ _ s => sharpen_ok s r hr factor sigma)

/-- C91: edge detection with both operators. -/
theorem C91_edge_detection (mode : EdgeDetection) :
    DependsWithin 1 (fun b : PixelBuffer (Col F) => edge_detection b mode) ∧
    Tiles 1 (fun b : PixelBuffer (Col F) => edge_detection b mode) := by
  cases mode with
  | Sobel =>
    refine LocalRecipe.ops ?_ Rgb.NONE (fun _ _ _ _ s => C47_sobel s)
    exact (conv_local 3 3 1 (by omega) (by omega) (by omega) (by omega) sobelX).map2
      (conv_local 3 3 1 (by omega) (by omega) (by omega) (by omega) sobelY) fun p q =>
        let g := fun ch : Col F → F => clamp01 (Scalar.sqrt (ch p *. ch p +. ch q *. ch q))
        (⟨g Col.c0, g Col.c1, g Col.c2, lit 1⟩ : Col F)
  | Laplace =>
    refine LocalRecipe.ops ?_ Rgb.NONE (fun _ _ _ _ s => C47_laplace s)
    exact (conv_local 3 3 1 (by omega) (by omega) (by omega) (by omega) Spec.laplace).map
      fun c => ({ c with alpha := lit 1 } : Col F)

/-- C91: despeckling. -/
theorem C91_despeckle (t : F) (amount : Nat) :
    DependsWithin 1 (fun b => despeckle b t amount) ∧ Tiles 1 (fun b => despeckle b t amount) :=
  (despeckled_local t amount).ops Rgb.NONE (fun _ _ _ _ s => C40_despeckle s t amount)

/-- C91: symmetric nearest neighbour smoothing. -/
theorem C91_symmetric_nearest_neighbor (r : Nat) (hr : r < 1073741824) (with_center : Bool) :
    DependsWithin r (fun b : PixelBuffer (Col F) => symmetric_nearest_neighbor b r with_center) ∧
    Tiles r (fun b : PixelBuffer (Col F) => symmetric_nearest_neighbor b r with_center) :=
  (smoothed_local r with_center).ops Rgb.NONE (fun _ _ _ _ s => C43_symmetric_nearest_neighbor s r hr with_center)

/-- C91: the drawing effect looks at most `max 5 r + 6` pixels far (`max 5 r + 3` without reduced colours). -/
theorem C91_drawing [LawfulScalar F] (r : Nat) (hr : r ≤ 32767) (mode : DrawingMode) :
    let d := match mode with
      | .ReducedColors => max 5 r + 6
      | _ => max 5 r + 3
    DependsWithin d (fun b : PixelBuffer (Col F) => drawing b r mode) ∧
    Tiles d (fun b : PixelBuffer (Col F) => drawing b r mode) := by
  cases mode with
  | Gray => exact (sketch_local r).ops Rgb.NONE (fun _ _ _ _ s => (C74_drawing s r .Gray).1 hr)
  | Colored =>
    exact (((sketch_local r).map2 LocalRecipe.pixel colored).mono (by show _ ≤ max 5 r + 3; omega)).ops Rgb.NONE
      (fun _ _ _ _ s => (C74_drawing s r .Colored).1 hr)
  | ReducedColors =>
    exact (reduced_local r).ops Rgb.NONE (fun _ _ _ _ s => (C74_drawing s r .ReducedColors).1 hr)

end

/-! Concrete cases: an 8 x 6 image, the tile of 4 x 6 pixels at (2, 0), radius 1, pixel (2, 0) of the
tile; two different images that agree near the pixel (0, 0). -/

example [Libm b32] (c : Col F32) (sigma : Option F32) :
    (crop c ⟨8, 6, List.replicate 48 c⟩ 2 0 4 6 >>= fun t =>
      gaussian_blur t 1 sigma >>= fun b => b.get_pixel 2 0) =
    (gaussian_blur ⟨8, 6, List.replicate 48 c⟩ 1 sigma >>= fun b => b.get_pixel (2 + 2) (0 + 0)) :=
  (C91_gaussian_blur 1 (by omega) sigma).2 c ⟨8, 6, List.replicate 48 c⟩ ⟨by simp [ValidSize], rfl⟩ 2 0 4 6
    (by simp) (by simp) 2 (by simp) 0 (by simp) (by simp) (by simp) (by simp) (by simp)

example [Libm b32] (c d : Col F32) :
    (edge_detection ⟨4, 1, [c, c, c, c]⟩ .Sobel >>= fun b => b.get_pixel 0 0) =
    (edge_detection ⟨4, 1, [c, c, c, d]⟩ .Sobel >>= fun b => b.get_pixel 0 0) := by
  refine (C91_edge_detection .Sobel).1 ⟨4, 1, [c, c, c, c]⟩ ⟨4, 1, [c, c, c, d]⟩ ⟨by simp [ValidSize], rfl⟩ ⟨by simp [ValidSize], rfl⟩ rfl rfl 0 0 ?_
  intro i j hi _ hj _
  have h1 : i = 0 ∨ i = 1 := by omega
  have h2 : j = 0 ∨ j = 1 := by omega
  rcases h1 with rfl | rfl <;> rcases h2 with rfl | rfl <;> rfl

end D10
