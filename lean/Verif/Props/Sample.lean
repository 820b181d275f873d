import Verif.Lemmas.Sample
import Verif.Lemmas.Coords
import Verif.Lemmas.Hsl

/-!
# Resize and free rotation: C18, C19, C20, C21

The theorems about shape, pixels and panics hold for every number type with `Coords F`, which is
proved for binary32 (with arbitrary `sin` and `cos`) and for exact arithmetic.
-/

namespace D10
open Spec PixelBuffer

section general
variable {F : Type} [Scalar F] [Coords F]

/-! ## C18, C19 -/

/-- Every filter: the result has the requested size and its pixels are the filter's samples of the
image at the scaled positions; nothing overflows. (The automatic filter needs sides of at most 2^27:
beyond, its window does not fit an `i32`.) -/
theorem C18_resize {b : PixelBuffer (Col F)} {w h px} (s : Shows b w h px) (hw : 0 < w)
    (nw nh : Nat) (hv : ValidSize nw nh) (hne : ¬ (nw = w ∧ nh = h)) (filter : FilterMode)
    (hauto : filter = .Auto → w ≤ 134217728 ∧ h ≤ 134217728) :
    ∃ b', resize b nw nh filter = .ok b' ∧ Shows b' nw nh (resized filter w h px nw nh) := by
  have hh : 0 < h := by rcases s.size with ⟨h1, _⟩ | ⟨_, h, _⟩ <;> omega
  have hwl := s.size.width_le
  have hhl := s.size.height_le
  have hnwl := hv.width_le
  have hnhl := hv.height_le
  have cx : ∀ x < nw, _ := fun x hx => Coords.scaled (F := F) w nw x hx hnwl hw hwl
  have cy : ∀ y < nh, _ := fun y hy => Coords.scaled (F := F) h nh y hy hnhl hh hhl
  have hsame : (b.width == nw && b.height == nh) = false := by
    rw [s.width, s.height, Bool.and_eq_false_iff]
    simp only [beq_eq_false_iff_ne]
    omega
  have lan : ∀ N, N ≤ 13 → ∃ b', resize_with_fn b nw nh (resize_pixel_lanczos N) = .ok b' ∧
      Shows b' nw nh fun x y => lanczosAt w h px N (scaledPos w nw x) (scaledPos h nh y) := by
    intro N hN
    unfold resize_with_fn resize_pixel_lanczos
    rw [s.width, s.height]
    refine (C02_new_from_func nw nh _ _ ?_).1 hv
    intro x y hx hy
    have := cx x hx
    have := cy y hy
    exact get_pixel_lanczos_ok s hw N _ _ (by omega)
      (by change _ ≤ base (scaledPos w nw x : F) - _; omega)
      (by change base (scaledPos w nw x : F) + _ < _; omega)
      (by change _ ≤ base (scaledPos h nh y : F) - _; omega)
      (by change base (scaledPos h nh y : F) + _ < _; omega)
  have bic : ∃ b', resize_with_fn b nw nh resize_pixel_bicubic = .ok b' ∧
      Shows b' nw nh fun x y => bicubic w h px (scaledPos w nw x) (scaledPos h nh y) := by
    unfold resize_with_fn resize_pixel_bicubic
    rw [s.width, s.height]
    refine (C02_new_from_func nw nh _ _ ?_).1 hv
    intro x y hx hy
    have := cx x hx
    have := cy y hy
    exact get_pixel_bicubic_ok s hw _ _
      (by change _ ≤ base (scaledPos w nw x : F); omega)
      (by change base (scaledPos w nw x : F) ≤ _; omega)
      (by change _ ≤ base (scaledPos h nh y : F); omega)
      (by change base (scaledPos h nh y : F) ≤ _; omega)
  unfold resize
  rw [hsame, if_neg (by simp)]
  cases filter with
  | Nearest =>
    simp only []
    unfold resize_with_fn resize_pixel_nearest
    rw [s.width, s.height]
    exact (C02_new_from_func nw nh _ _ fun x y _ _ => C04_get_pixel_clamped s hw _ _).1 hv
  | Bilinear =>
    simp only []
    unfold resize_with_fn resize_pixel_bilinear
    rw [s.width, s.height]
    refine (C02_new_from_func nw nh _ _ ?_).1 hv
    intro x y hx hy
    have := cx x hx
    have := cy y hy
    exact get_pixel_bilinear_ok s hw _ _
      (by change _ ≤ base (scaledPos w nw x : F); omega)
      (by change base (scaledPos w nw x : F) ≤ _; omega)
      (by change _ ≤ base (scaledPos h nh y : F); omega)
      (by change base (scaledPos h nh y : F) ≤ _; omega)
  | Bicubic => exact bic
  | Lanczos3 => exact lan 7 (by omega)
  | Auto =>
    simp only [s.width, s.height, Bool.or_eq_true, decide_eq_true_eq]
    unfold resized
    by_cases hup : w ≤ nw ∨ h ≤ nh
    · simp only [hup, if_true]; exact bic
    · simp only [hup, if_false]
      unfold resize_auto
      simp only [s.width, s.height]
      have hau : autoSize (Scalar.ofNat nw /. Scalar.ofNat w : F) (Scalar.ofNat nh /. Scalar.ofNat h) =
        autoWindow F w h nw nh := rfl
      rw [hau]
      obtain ⟨ha1, ha2⟩ := hauto rfl
      by_cases h0 : nw = 0 ∨ nh = 0
      · -- nothing to compute
        have hz : nw = 0 ∧ nh = 0 := by rcases hv with h | ⟨h1, h2, _⟩ <;> omega
        obtain ⟨rfl, rfl⟩ := hz
        have any : ∀ (f : Nat → Nat → R (Col F)) (g : Nat → Nat → Col F),
            ∃ b', new_from_func 0 0 f = .ok b' ∧ Shows b' 0 0 g := fun f g =>
          (C02_new_from_func 0 0 f g (by intro x y hx; omega)).1 hv
        split <;> exact any _ _
      · have hsz := Coords.auto (F := F) w nw h nh (by omega) (by omega) ha1 (by omega) (by omega) ha2
        change 3 ≤ autoWindow F w h nw nh ∧ autoWindow F w h nw nh ≤ _ at hsz
        generalize autoWindow F w h nw nh = size at hsz ⊢
        split
        · exact lan 7 (by omega)
        · exact lan 9 (by omega)
        · exact lan 11 (by omega)
        · exact lan 13 (by omega)
        · rename_i n3 n4 n5 n6
          have h7 : ¬ size ≤ 6 := by
            change size ≠ 3 at n3
            change size ≠ 4 at n4
            change size ≠ 5 at n5
            change size ≠ 6 at n6
            omega
          simp only [h7, if_false]
          refine (C02_new_from_func nw nh _ _ ?_).1 hv
          intro x y hx hy
          have := cx x hx
          have := cy y hy
          exact get_pixel_lanczos_dyn_ok s hw size _ _ (by omega)
            (by change _ ≤ base (scaledPos w nw x : F) - _; omega)
            (by change base (scaledPos w nw x : F) + _ < _; omega)
            (by change _ ≤ base (scaledPos h nh y : F) - _; omega)
            (by change base (scaledPos h nh y : F) + _ < _; omega)

omit [Coords F] in
/-- Resizing to the current size changes nothing. -/
theorem C18_resize_same (b : PixelBuffer (Col F)) (filter : FilterMode) :
    resize b b.width b.height filter = .ok b := by
  unfold resize; simp

omit [Coords F] in
theorem new_from_func_invalid {T : Type} (w h : Nat) (f : Nat → Nat → R T) (hv : ¬ ValidSize w h) :
    new_from_func w h f = .error .invalidSize := by
  have : new_from_func w h f = (do let _ ← validate_size w h; _) := rfl
  rw [this, validate_err hv]; rfl

omit [Coords F] in
/-- Resizing to a size that is not valid panics. -/
theorem C18_resize_invalid {b : PixelBuffer (Col F)} (hb : WellFormed b) (nw nh : Nat)
    (hv : ¬ ValidSize nw nh) (filter : FilterMode) :
    resize b nw nh filter = .error .invalidSize := by
  have hsame : (b.width == nw && b.height == nh) = false := by
    rw [Bool.and_eq_false_iff]
    simp only [beq_eq_false_iff_ne]
    by_contra hc
    have : b.width = nw ∧ b.height = nh := by omega
    rw [← this.1, ← this.2] at hv
    exact hv hb.1
  unfold resize
  rw [hsame, if_neg (by simp)]
  cases filter <;> simp only []
  · exact new_from_func_invalid _ _ _ hv
  · exact new_from_func_invalid _ _ _ hv
  · exact new_from_func_invalid _ _ _ hv
  · exact new_from_func_invalid _ _ _ hv
  · split
    · exact new_from_func_invalid _ _ _ hv
    · unfold resize_auto
      simp only []
      split <;> exact new_from_func_invalid _ _ _ hv

omit [Coords F] in
theorem new_from_func_first {T : Type} (w h : Nat) (f : Nat → Nat → R T) (hv : ValidSize w h)
    (hw : 0 < w) (hf : ∃ e, f 0 0 = .error e) : ∃ e, new_from_func w h f = .error e := by
  have hh : 0 < h := by rcases hv with ⟨h1, _⟩ | ⟨_, h, _⟩ <;> omega
  have := hv.mul_le
  obtain ⟨e, he⟩ := hf
  obtain ⟨e', h'⟩ := mapM_error (List.range (w * h)) (fun i => f (i % w) (i / w)) 0
    (List.mem_range.2 (Nat.mul_pos hw hh)) (by simp [he])
  refine ⟨e', ?_⟩
  simp only [new_from_func, new_from_funcM, liftM, monadLift, validate_ok hv, ok_bind,
    u32_ok (show w * h < 4294967296 by omega), h']
  rfl

omit [Coords F] in
/-- Resizing an empty image to a non-empty size panics. -/
theorem C18_resize_empty {b : PixelBuffer (Col F)} {px} (s : Shows b 0 0 px) (nw nh : Nat)
    (hv : ValidSize nw nh) (hw : 0 < nw) (filter : FilterMode) :
    ∃ e, resize b nw nh filter = .error e := by
  have hsame : (b.width == nw && b.height == nh) = false := by
    rw [s.width, s.height, Bool.and_eq_false_iff]
    simp only [beq_eq_false_iff_ne]
    omega
  have hg : ∀ x y, b.get_pixel_clamped x y = .error .overflow := C04_get_pixel_clamped_empty s
  have bic : ∀ x y : F, ∃ e, get_pixel_bicubic b x y = .error e := by
    intro x y
    unfold get_pixel_bicubic
    simp only [hg]
    cases i32 ((get_base_and_offset x).1 - 1) with
    | error e => exact ⟨e, rfl⟩
    | ok a =>
      rw [ok_bind]
      cases i32 ((get_base_and_offset y).1 - 1) with
      | error e => exact ⟨e, rfl⟩
      | ok c => exact ⟨_, rfl⟩
  unfold resize
  rw [hsame, if_neg (by simp)]
  cases filter <;> simp only []
  · exact new_from_func_first _ _ _ hv hw ⟨_, hg _ _⟩
  · refine new_from_func_first _ _ _ hv hw ⟨.overflow, ?_⟩
    unfold resize_pixel_bilinear get_pixel_bilinear
    simp only [hg]; rfl
  · exact new_from_func_first _ _ _ hv hw (bic _ _)
  · refine new_from_func_first _ _ _ hv hw ?_
    unfold resize_pixel_lanczos get_pixel_lanczos get_base_and_offset
    simp only []
    obtain ⟨e, he⟩ := C09_get_kernel_empty s 7 (base ((Scalar.ofNat 0 +. lit 0.5) /.
      (Scalar.ofNat nw /. Scalar.ofNat b.width) -. lit 0.5 : F))
      (base ((Scalar.ofNat 0 +. lit 0.5) /. (Scalar.ofNat nh /. Scalar.ofNat b.height) -. lit 0.5 : F))
      (by omega)
    unfold base at he
    rw [he]
    exact ⟨e, rfl⟩
  · rw [s.width]
    simp only [Nat.zero_le, decide_true, Bool.true_or, if_true]
    exact new_from_func_first _ _ _ hv hw (bic _ _)

/-- Nearest-neighbour resize only copies: every pixel of the result is a pixel of the image. -/
theorem C19_nearest_copies {b : PixelBuffer (Col F)} {w h px} (s : Shows b w h px) (hw : 0 < w)
    (nw nh : Nat) (hv : ValidSize nw nh) :
    ∃ b', resize b nw nh .Nearest = .ok b' ∧ ∃ px', Shows b' nw nh px' ∧
      ∀ x < nw, ∀ y < nh, ∃ i < w, ∃ j < h, px' x y = px i j := by
  have hh : 0 < h := by rcases s.size with ⟨h1, _⟩ | ⟨_, h, _⟩ <;> omega
  by_cases hsame : nw = w ∧ nh = h
  · obtain ⟨rfl, rfl⟩ := hsame
    refine ⟨b, ?_, px, s, fun x hx y hy => ⟨x, hx, y, hy, rfl⟩⟩
    have := C18_resize_same b .Nearest
    rwa [s.width, s.height] at this
  · obtain ⟨b', h1, h2⟩ := C18_resize s hw nw nh hv hsame .Nearest (by simp)
    refine ⟨b', h1, _, h2, fun x _ y _ => ⟨_, ?_, _, ?_, rfl⟩⟩ <;> unfold nearest <;> omega

/-! ## C21 -/

omit [Coords F] in
/-- A rotation by 360 degrees changes nothing. -/
theorem C21_rotate_360 (b : PixelBuffer (Col F)) (angle : F) (bg : Col F) (filter : FilterMode)
    (ha : (Scalar.abs (angle -. lit 360) <. lit (1 / 8388608)) = true) :
    rotate b angle bg filter = .ok b := by
  unfold rotate f32_EPSILON
  rw [if_pos ha]

/-- Any other rotation keeps the size; each pixel is the background colour exactly where the pixel
nearest to the rotated-back position is outside the image, and the filter's sample elsewhere. -/
theorem C21_rotate {b : PixelBuffer (Col F)} {w h px} (s : Shows b w h px) (angle : F) (bg : Col F)
    (filter : FilterMode) (ha : (Scalar.abs (angle -. lit 360) <. lit (1 / 8388608)) = false) :
    ∃ b', rotate b angle bg filter = .ok b' ∧ Shows b' w h (rotated filter w h px angle bg) := by
  have hwl := s.size.width_le
  have hhl := s.size.height_le
  have pos0 : ∀ {x}, x < w → 0 < w := fun h => by omega
  have run : ∀ (func : PixelBuffer (Col F) → F → F → R (Option (Col F))) (g : F → F → Col F),
      (∀ x y, 0 < w → func b x y = .ok (open Classical in if inside w h x y then some (g x y) else none)) →
      ∃ b', rotate_with_fn b angle bg func = .ok b' ∧ Shows b' w h fun x y =>
        let p := rotatedFrom w h angle x y
        open Classical in if inside w h p.1 p.2 then g p.1 p.2 else bg := by
    intro func g hf
    unfold rotate_with_fn
    rw [s.width, s.height, u32_ok (by omega), ok_bind, u32_ok (by omega), ok_bind]
    refine (C02_new_from_func w h _ _ ?_).1 s.size
    intro x y hx hy
    have key : ∀ p q, Option.getD (open Classical in if inside w h p q then some (g p q) else none) bg =
        open Classical in if inside w h p q then g p q else bg := by
      intro p q; split <;> rfl
    simp only []
    rw [hf _ _ (by omega), ok_bind]
    exact congrArg Except.ok (key _ _)
  have bounds : ∀ x y : F, inside w h x y → (-1 ≤ base x ∧ base x ≤ 1073741824) ∧
      (-1 ≤ base y ∧ base y ≤ 1073741824) := by
    intro x y ⟨h1, h2, h3, h4⟩
    exact ⟨Coords.rounded x h1 (by omega), Coords.rounded y h3 (by omega)⟩
  have sample : ∀ (get : PixelBuffer (Col F) → F → F → R (Col F)) (g : F → F → Col F),
      (∀ x y, 0 < w → -1 ≤ base x → base x ≤ 1073741824 → -1 ≤ base y → base y ≤ 1073741824 →
        get b x y = .ok (g x y)) → ∀ x y, 0 < w →
      (if b.is_in_image (Scalar.asI32 (Scalar.round x)) (Scalar.asI32 (Scalar.round y)) then
        (do return some (← get b x y)) else return none : R (Option (Col F))) =
        .ok (open Classical in if inside w h x y then some (g x y) else none) := by
    intro get g hg x y hw
    by_cases hin : inside w h x y
    · have hb := bounds x y hin
      rw [if_pos ((C05_is_in_image s _ _).2 hin), if_pos hin,
        hg x y hw hb.1.1 hb.1.2 hb.2.1 hb.2.2]
      rfl
    · rw [if_neg (fun h => hin ((C05_is_in_image s _ _).1 h)), if_neg hin]
      rfl
  unfold rotate f32_EPSILON
  rw [ha, if_neg (by simp)]
  have bic := run rotate_pixel_bicubic (bicubic w h px)
    (sample get_pixel_bicubic _ fun x y hw h1 h2 h3 h4 =>
      get_pixel_bicubic_ok s hw x y (by omega) (by omega) (by omega) (by omega))
  cases filter with
  | Nearest =>
    refine run rotate_pixel_nearest (fun x y =>
      px (Scalar.asI32 (Scalar.round x)).toNat (Scalar.asI32 (Scalar.round y)).toNat) ?_
    intro x y hw
    unfold rotate_pixel_nearest
    rw [C05_get_pixel_optional s]
    unfold inside
    congr 1
    split <;> simp_all
  | Bilinear =>
    exact run rotate_pixel_bilinear (bilinear w h px)
      (sample get_pixel_bilinear _ fun x y hw h1 h2 h3 h4 =>
        get_pixel_bilinear_ok s hw x y (by omega) (by omega) (by omega) (by omega))
  | Bicubic => exact bic
  | Auto => exact bic
  | Lanczos3 =>
    exact run rotate_pixel_lanczos3 (lanczosAt w h px 7)
      (sample get_pixel_lanczos3 _ fun x y hw h1 h2 h3 h4 =>
        get_pixel_lanczos_ok s hw 7 x y (by omega) (by omega) (by omega) (by omega) (by omega))

end general

/-! Concrete cases: a 3 x 2 image in binary32. -/

example [Libm b32] : Shows (⟨3, 2, List.replicate 6 (⟨lit 0.25, lit 0.5, lit 1, lit 1⟩ : Col F32)⟩) 3 2
    (fun _ _ => ⟨lit 0.25, lit 0.5, lit 1, lit 1⟩) :=
  ⟨rfl, rfl, by unfold ValidSize; omega, rfl⟩

example [Libm b32] : ∃ b' px', resize ⟨3, 2, List.replicate 6 (Rgb.new (lit 0.25) (lit 0.5) (lit 1) : Col F32)⟩
    5 7 .Auto = .ok b' ∧ Shows b' 5 7 px' := by
  obtain ⟨b', h1, h2⟩ := C18_resize (b := ⟨3, 2, List.replicate 6 (Rgb.new (lit 0.25) (lit 0.5) (lit 1) : Col F32)⟩)
    (w := 3) (h := 2) (px := fun _ _ => Rgb.new (lit 0.25) (lit 0.5) (lit 1))
    ⟨rfl, rfl, by unfold ValidSize; omega, rfl⟩ (by omega) 5 7 (by unfold ValidSize; omega) (by omega) .Auto
    (by intro _; omega)
  exact ⟨b', _, h1, h2⟩

example [Libm b32] : ∃ b' px', rotate ⟨3, 2, List.replicate 6 (Rgb.new (lit 0.25) (lit 0.5) (lit 1) : Col F32)⟩
    (lit 30) Rgb.NONE .Lanczos3 = .ok b' ∧ Shows b' 3 2 px' := by
  obtain ⟨b', h1, h2⟩ := C21_rotate (b := ⟨3, 2, List.replicate 6 (Rgb.new (lit 0.25) (lit 0.5) (lit 1) : Col F32)⟩)
    (w := 3) (h := 2) (px := fun _ _ => Rgb.new (lit 0.25) (lit 0.5) (lit 1))
    ⟨rfl, rfl, by unfold ValidSize; omega, rfl⟩ (lit 30) Rgb.NONE .Lanczos3
    (by
      show FP.lt (FP.abs (FP.sub (FP.ofRat b32 false 30) (FP.ofRat b32 false 360)))
        (FP.ofRat b32 false (1 / 8388608)) = false
      decide +kernel)
  exact ⟨b', _, h1, h2⟩

/-! ## Exact arithmetic: what the samples mean -/

section exact
variable [Junk]

theorem Exact.lerp_eq (a b t : ℝ) : lerp a b t = (1 - t) * a + t * b := by
  unfold lerp; ex_simp; ring

theorem Exact.cubic_eq (a b c d t : ℝ) : cubic a b c d t =
    b + (c - a) / 2 * t + (a - 5 / 2 * b + 2 * c - d / 2) * t ^ 2 +
      (-a / 2 + 3 / 2 * b - 3 / 2 * c + d / 2) * t ^ 3 := by
  unfold cubic; ex_simp; ring

theorem Exact.frac_int (z : Int) : frac (z : ℝ) = 0 := by
  unfold frac; ex_simp; simp

theorem Exact.frac_range (v : ℝ) : 0 ≤ frac v ∧ frac v < 1 := by
  unfold frac; ex_simp
  exact ⟨by linarith [Int.floor_le v], by linarith [Int.lt_floor_add_one v]⟩

theorem Exact.base_nat (n : Nat) (hn : n ≤ 2147483647) : base (n : ℝ) = n := by
  rw [Exact.base_eq, Int.floor_natCast]; omega

theorem Unit.clamp {c : Col ℝ} (h : Spec.Unit c) : (perChannel fun ch => clamp01 (ch c)) = c := by
  unfold perChannel
  simp only []
  rw [Exact.clamp01_id h.r0 h.r1, Exact.clamp01_id h.g0 h.g1, Exact.clamp01_id h.b0 h.b1,
    Exact.clamp01_id h.a0 h.a1]

omit [Junk] in
theorem at_nat {w h : Nat} {px : Nat → Nat → Col ℝ} {i j : Nat} (hi : i < w) (hj : j < h) :
    at' w h px i j = px i j := by
  have e1 : nearest w (i : Int) = i := by unfold nearest; omega
  have e2 : nearest h (j : Int) = j := by unfold nearest; omega
  unfold at'; rw [e1, e2]

/-- The two building blocks: straight-line interpolation, and the Catmull-Rom cubic, which passes
through its two inner points with the slopes of the neighbouring chords. -/
theorem C20_interpolation (a b c d t : ℝ) :
    linear_interpolate a b t = (1 - t) * a + t * b ∧
    cubic_hermite_interpolate a b c d t =
      b + (c - a) / 2 * t + (a - 5 / 2 * b + 2 * c - d / 2) * t ^ 2 +
        (-a / 2 + 3 / 2 * b - 3 / 2 * c + d / 2) * t ^ 3 ∧
    cubic_hermite_interpolate a b c d 0 = b ∧ cubic_hermite_interpolate a b c d 1 = c := by
  refine ⟨Exact.lerp_eq a b t, Exact.cubic_eq a b c d t, (Exact.cubic_eq a b c d 0).trans ?_,
    (Exact.cubic_eq a b c d 1).trans ?_⟩ <;> ring

/-- Sampling at a pixel returns that pixel. -/
theorem C20_sample_at_pixel {b : PixelBuffer (Col ℝ)} {w h px} (s : Shows b w h px) {i j : Nat}
    (hi : i < w) (hj : j < h) (hu : Spec.Unit (px i j)) :
    get_pixel_bilinear b (i : ℝ) (j : ℝ) = .ok (px i j) ∧
    get_pixel_bicubic b (i : ℝ) (j : ℝ) = .ok (px i j) := by
  have hwl := s.size.width_le
  have hhl := s.size.height_le
  have bi := Exact.base_nat i (by omega)
  have bj := Exact.base_nat j (by omega)
  have fi : frac (i : ℝ) = 0 := by simpa using Exact.frac_int i
  have fj : frac (j : ℝ) = 0 := by simpa using Exact.frac_int j
  constructor
  · rw [get_pixel_bilinear_ok s (by omega) _ _ (by omega) (by omega) (by omega) (by omega)]
    congr 1
    unfold bilinear
    rw [bi, bj, fi, fj]
    simp only [Exact.lerp_eq, at_nat hi hj, sub_zero, one_mul, zero_mul, add_zero]
    exact Unit.clamp hu
  · rw [get_pixel_bicubic_ok s (by omega) _ _ (by omega) (by omega) (by omega) (by omega)]
    congr 1
    unfold bicubic
    rw [bi, bj, fi, fj]
    simp only [Exact.cubic_eq, Int.add_zero, at_nat hi hj]
    norm_num
    exact Unit.clamp hu

theorem bilinear_const {w h : Nat} {c : Col ℝ} (hu : Spec.Unit c) (x y : ℝ) :
    bilinear w h (fun _ _ => c) x y = c := by
  unfold bilinear at'
  simp only [Exact.lerp_eq]
  have e : ∀ v t : ℝ, (1 - t) * v + t * v = v := by intros; ring
  simp only [e]
  exact Unit.clamp hu

theorem bicubic_const {w h : Nat} {c : Col ℝ} (hu : Spec.Unit c) (x y : ℝ) :
    bicubic w h (fun _ _ => c) x y = c := by
  unfold bicubic at'
  simp only [Exact.cubic_eq]
  have e : ∀ v t : ℝ, v + (v - v) / 2 * t + (v - 5 / 2 * v + 2 * v - v / 2) * t ^ 2 +
      (-v / 2 + 3 / 2 * v - 3 / 2 * v + v / 2) * t ^ 3 = v := by intros; ring
  simp only [e]
  exact Unit.clamp hu

/-- An image of one colour stays that colour when it is resized by nearest, bilinear or bicubic
sampling, and when the automatic filter enlarges it. -/
theorem C20_resize_constant {b : PixelBuffer (Col ℝ)} {w h : Nat} {c : Col ℝ}
    (s : Shows b w h fun _ _ => c) (hw : 0 < w) (hu : Spec.Unit c) (nw nh : Nat)
    (hv : ValidSize nw nh) (filter : FilterMode)
    (hf : filter = .Nearest ∨ filter = .Bilinear ∨ filter = .Bicubic ∨
      (filter = .Auto ∧ (w ≤ nw ∨ h ≤ nh) ∧ w ≤ 134217728 ∧ h ≤ 134217728)) :
    ∃ b', resize b nw nh filter = .ok b' ∧ Shows b' nw nh fun _ _ => c := by
  by_cases hsame : nw = w ∧ nh = h
  · obtain ⟨rfl, rfl⟩ := hsame
    refine ⟨b, ?_, s⟩
    have := C18_resize_same b filter
    rwa [s.width, s.height] at this
  · obtain ⟨b', h1, h2⟩ := C18_resize s hw nw nh hv hsame filter (by
      rintro rfl; simp at hf; exact hf.2)
    refine ⟨b', h1, h2.congr ?_⟩
    intro x y _ _
    unfold resized
    rcases hf with rfl | rfl | rfl | ⟨rfl, hup, _⟩
    · rfl
    · exact bilinear_const hu _ _
    · exact bicubic_const hu _ _
    · simp only [hup, if_true]; exact bicubic_const hu _ _

/-- Rotating an image of one colour over that colour changes nothing (all filters but Lanczos). -/
theorem C20_rotate_constant {b : PixelBuffer (Col ℝ)} {w h : Nat} {c : Col ℝ}
    (s : Shows b w h fun _ _ => c) (hu : Spec.Unit c) (angle : ℝ) (filter : FilterMode)
    (hf : filter ≠ .Lanczos3) :
    ∃ b', rotate b angle c filter = .ok b' ∧ Shows b' w h fun _ _ => c := by
  by_cases ha : (Scalar.abs (angle -. lit 360) <. lit (1 / 8388608)) = true
  · exact ⟨b, C21_rotate_360 b angle c filter ha, s⟩
  · obtain ⟨b', h1, h2⟩ := C21_rotate s angle c filter (by simpa using ha)
    refine ⟨b', h1, h2.congr ?_⟩
    intro x y _ _
    unfold rotated
    simp only []
    split
    · cases filter with
      | Nearest => rfl
      | Bilinear => exact bilinear_const hu _ _
      | Bicubic => exact bicubic_const hu _ _
      | Auto => exact bicubic_const hu _ _
      | Lanczos3 => exact absurd rfl hf
    · rfl

theorem lerp_between {a b t : ℝ} (h0 : 0 ≤ t) (h1 : t ≤ 1) :
    min a b ≤ lerp a b t ∧ lerp a b t ≤ max a b := by
  rw [Exact.lerp_eq]
  have := min_le_left a b
  have := min_le_right a b
  have := le_max_left a b
  have := le_max_right a b
  constructor <;> nlinarith

/-- A bilinear sample lies, channel by channel, between the smallest and the largest of the four
pixels around the position. -/
theorem C20_bilinear_between {b : PixelBuffer (Col ℝ)} {w h px} (s : Shows b w h px) (hw : 0 < w)
    (hu : ∀ x < w, ∀ y < h, Spec.Unit (px x y)) (x y : ℝ) (hx : |x| ≤ 2000000000) (hy : |y| ≤ 2000000000) :
    ∃ c, get_pixel_bilinear b x y = .ok c ∧
      ∀ ch ∈ [Col.c0, Col.c1, Col.c2, Col.alpha],
        min (min (ch (at' w h px ⌊x⌋ ⌊y⌋)) (ch (at' w h px (⌊x⌋ + 1) ⌊y⌋)))
          (min (ch (at' w h px ⌊x⌋ (⌊y⌋ + 1))) (ch (at' w h px (⌊x⌋ + 1) (⌊y⌋ + 1)))) ≤ ch c ∧
        ch c ≤ max (max (ch (at' w h px ⌊x⌋ ⌊y⌋)) (ch (at' w h px (⌊x⌋ + 1) ⌊y⌋)))
          (max (ch (at' w h px ⌊x⌋ (⌊y⌋ + 1))) (ch (at' w h px (⌊x⌋ + 1) (⌊y⌋ + 1)))) := by
  have hh : 0 < h := by rcases s.size with ⟨h1, _⟩ | ⟨_, h, _⟩ <;> omega
  rw [abs_le] at hx hy
  have fx0 : -2000000000 ≤ ⌊x⌋ := Int.le_floor.2 (by push_cast; linarith)
  have fx1 : ⌊x⌋ < 2000000001 := Int.floor_lt.2 (by push_cast; linarith)
  have fy0 : -2000000000 ≤ ⌊y⌋ := Int.le_floor.2 (by push_cast; linarith)
  have fy1 : ⌊y⌋ < 2000000001 := Int.floor_lt.2 (by push_cast; linarith)
  have bx := Exact.base_of (v := x) (by omega) (by omega)
  have bY := Exact.base_of (v := y) (by omega) (by omega)
  refine ⟨_, get_pixel_bilinear_ok s hw x y (by omega) (by omega) (by omega) (by omega), ?_⟩
  have hat : ∀ i j, Spec.Unit (at' w h px i j) := by
    intro i j
    exact hu _ (by unfold nearest; omega) _ (by unfold nearest; omega)
  obtain ⟨tx0, tx1⟩ := Exact.frac_range x
  obtain ⟨ty0, ty1⟩ := Exact.frac_range y
  have main : ∀ ch : Col ℝ → ℝ, (∀ c, Spec.Unit c → 0 ≤ ch c ∧ ch c ≤ 1) →
      ∀ v, v = clamp01 (lerp
        (lerp (ch (at' w h px (base x) (base y + 0))) (ch (at' w h px (base x + 1) (base y + 0))) (frac x))
        (lerp (ch (at' w h px (base x) (base y + 1))) (ch (at' w h px (base x + 1) (base y + 1))) (frac x))
        (frac y)) →
        min (min (ch (at' w h px ⌊x⌋ ⌊y⌋)) (ch (at' w h px (⌊x⌋ + 1) ⌊y⌋)))
          (min (ch (at' w h px ⌊x⌋ (⌊y⌋ + 1))) (ch (at' w h px (⌊x⌋ + 1) (⌊y⌋ + 1)))) ≤ v ∧
        v ≤ max (max (ch (at' w h px ⌊x⌋ ⌊y⌋)) (ch (at' w h px (⌊x⌋ + 1) ⌊y⌋)))
          (max (ch (at' w h px ⌊x⌋ (⌊y⌋ + 1))) (ch (at' w h px (⌊x⌋ + 1) (⌊y⌋ + 1)))) := by
    intro ch hch v hv
    rw [bx, bY, Int.add_zero] at hv
    have u1 := hch _ (hat ⌊x⌋ ⌊y⌋)
    have u2 := hch _ (hat (⌊x⌋ + 1) ⌊y⌋)
    have u3 := hch _ (hat ⌊x⌋ (⌊y⌋ + 1))
    have u4 := hch _ (hat (⌊x⌋ + 1) (⌊y⌋ + 1))
    generalize ch (at' w h px ⌊x⌋ ⌊y⌋) = p1 at *
    generalize ch (at' w h px (⌊x⌋ + 1) ⌊y⌋) = p2 at *
    generalize ch (at' w h px ⌊x⌋ (⌊y⌋ + 1)) = p3 at *
    generalize ch (at' w h px (⌊x⌋ + 1) (⌊y⌋ + 1)) = p4 at *
    have l1 := lerp_between (a := p1) (b := p2) tx0 tx1.le
    have l2 := lerp_between (a := p3) (b := p4) tx0 tx1.le
    have l3 := lerp_between (a := lerp p1 p2 (frac x)) (b := lerp p3 p4 (frac x)) ty0 ty1.le
    have lo := le_trans (min_le_min l1.1 l2.1) l3.1
    have up := le_trans l3.2 (max_le_max l1.2 l2.2)
    have z : 0 ≤ min (min p1 p2) (min p3 p4) := le_min (le_min u1.1 u2.1) (le_min u3.1 u4.1)
    have o : max (max p1 p2) (max p3 p4) ≤ 1 := max_le (max_le u1.2 u2.2) (max_le u3.2 u4.2)
    rw [hv, Exact.clamp01_id (le_trans z lo) (le_trans up o)]
    exact ⟨lo, up⟩
  intro ch hch
  simp only [List.mem_cons, List.not_mem_nil, or_false] at hch
  rcases hch with rfl | rfl | rfl | rfl
  · exact main _ (fun c h => ⟨h.r0, h.r1⟩) _ rfl
  · exact main _ (fun c h => ⟨h.g0, h.g1⟩) _ rfl
  · exact main _ (fun c h => ⟨h.b0, h.b1⟩) _ rfl
  · exact main _ (fun c h => ⟨h.a0, h.a1⟩) _ rfl

/-- Where resize samples: the middle of the pixel, scaled. -/
theorem C20_position (m n x : Nat) (hm : 0 < m) (hn : 0 < n) :
    (scaledPos m n x : ℝ) + 1 / 2 = (x + 1 / 2) * (m / n) := by
  rw [Exact.scaledPos_eq m n x hm hn]; ring

/-- The nearest filter reads the pixel at most half a pixel away from the scaled position of the
pixel's corner. -/
theorem C19_nearest_position (m n x : Nat) (hm : 0 < m) (hn : x < n) (hml : m ≤ 1073741823) :
    |(scaledNearest ℝ m n x : ℝ) - x * (m / n)| ≤ 1 / 2 := by
  have hn0 : (0 : ℝ) < n := by exact_mod_cast (by omega : 0 < n)
  have h1 : (m : ℝ) ≠ 0 := by exact_mod_cast hm.ne'
  have hmp : (0 : ℝ) < m := by exact_mod_cast hm
  have hml' : (m : ℝ) ≤ 1073741823 := by exact_mod_cast hml
  have hxn : (x : ℝ) ≤ n := by exact_mod_cast hn.le
  have hx0 : (0 : ℝ) ≤ x := by exact_mod_cast Nat.zero_le x
  have pos : (Scalar.ofNat x /. (Scalar.ofNat n /. Scalar.ofNat m) +. lit 0.5 : ℝ) =
      x * (m / n) + 1 / 2 := by
    rw [Exact.scale_eq m n hm, Exact.add, Exact.div (by positivity)]
    unfold Scalar.ofNat
    rw [Exact.lit, Exact.lit]
    push_cast
    rw [div_div_eq_mul_div, mul_div_assoc]; norm_num
  unfold scaledNearest
  rw [pos]
  unfold Scalar.asI32
  rw [Exact.floor, Exact.toInt_int]
  have l0 : 0 ≤ (x : ℝ) * (m / n) := by positivity
  have u0 : (x : ℝ) * (m / n) ≤ m := by
    rw [← mul_div_assoc, div_le_iff₀ hn0]; nlinarith
  have f0 : 0 ≤ ⌊(x : ℝ) * (m / n) + 1 / 2⌋ := Int.floor_nonneg.2 (by linarith)
  have f1 : ⌊(x : ℝ) * (m / n) + 1 / 2⌋ < 1073741825 := Int.floor_lt.2 (by push_cast; linarith)
  have e : max (-2147483648) (min 2147483647 ⌊(x : ℝ) * (m / n) + 1 / 2⌋) =
      ⌊(x : ℝ) * (m / n) + 1 / 2⌋ := by omega
  rw [e, abs_le]
  constructor <;> linarith [Int.floor_le ((x : ℝ) * (m / n) + 1 / 2),
    Int.lt_floor_add_one ((x : ℝ) * (m / n) + 1 / 2)]

/-- How far the automatic filter reaches: twice the larger reduction factor, rounded up, at least 3. -/
theorem C18_auto_window (w h nw nh : Nat) (hw : 0 < w) (hh : 0 < h) (hnw : 0 < nw) (hnh : 0 < nh)
    (hwl : w ≤ 1073741823) (hhl : h ≤ 1073741823) :
    (autoWindow ℝ w h nw nh : Int) = max 3 ⌈2 * max ((w : ℝ) / nw) ((h : ℝ) / nh)⌉ :=
  Exact.autoSize_eq hw hnw hh hnh (by omega) (by omega)

/-- Where rotate samples: the position relative to the middle of the image, turned by the angle. -/
theorem C21_rotated_position (w h : Nat) (angle : ℝ) (x y : Nat) :
    let t := -angle / 180 * 3.14159265358979323846264338327950288
    let p := rotatedFrom w h angle x y
    p.1 - ((w : ℝ) - 1) / 2 =
      (x - ((w : ℝ) - 1) / 2) * Real.cos t - (y - ((h : ℝ) - 1) / 2) * Real.sin t ∧
    p.2 - ((h : ℝ) - 1) / 2 =
      (x - ((w : ℝ) - 1) / 2) * Real.sin t + (y - ((h : ℝ) - 1) / 2) * Real.cos t := by
  have e : angle / -180 * 3.14159265358979323846264338327950288 =
      -angle / 180 * 3.14159265358979323846264338327950288 := by ring
  unfold rotatedFrom Scalar.ofNat
  ex_simp
  rw [e]
  push_cast
  constructor <;> ring

/-- A rotation by 0 degrees returns an image with the same pixels (all filters but Lanczos). -/
theorem C21_rotate_zero {b : PixelBuffer (Col ℝ)} {w h px} (s : Shows b w h px)
    (hu : ∀ x < w, ∀ y < h, Spec.Unit (px x y)) (bg : Col ℝ) (filter : FilterMode)
    (hf : filter ≠ .Lanczos3) : rotate b (0 : ℝ) bg filter = .ok b := by
  have hwl := s.size.width_le
  have hhl := s.size.height_le
  have ha : (Scalar.abs ((0 : ℝ) -. lit 360) <. lit (1 / 8388608)) = false := by
    rw [Bool.eq_false_iff]
    intro h
    rw [Exact.lt] at h
    ex_simp at h
    norm_num at h
  obtain ⟨b', h1, h2⟩ := C21_rotate s (0 : ℝ) bg filter ha
  rw [h1]
  congr 1
  apply (h2.congr (px' := px) ?_).eq s
  intro x y hx hy
  have pos : rotatedFrom w h (0 : ℝ) x y = ((x : ℝ), (y : ℝ)) := by
    have := C21_rotated_position w h 0 x y
    simp only [neg_zero, zero_div, zero_mul, Real.cos_zero, Real.sin_zero, mul_one, mul_zero] at this
    ext
    · simp only; linarith [this.1]
    · simp only; linarith [this.2]
  have rnd : ∀ n : Nat, n ≤ 1073741823 → Scalar.asI32 (Scalar.round (n : ℝ)) = n := by
    intro n hn
    rw [Exact.round_eq, if_neg (by simp)]
    have : ⌊(n : ℝ) + 1 / 2⌋ = n := by
      rw [Int.floor_eq_iff]; constructor <;> push_cast <;> linarith
    rw [this]; omega
  have hin : inside w h (x : ℝ) (y : ℝ) := by
    unfold inside
    rw [rnd x (by omega), rnd y (by omega)]; omega
  have hs := C20_sample_at_pixel s hx hy (hu x hx y hy)
  have hbil : bilinear w h px (x : ℝ) (y : ℝ) = px x y := by
    have bi := Exact.base_nat x (by omega)
    have bj := Exact.base_nat y (by omega)
    have := get_pixel_bilinear_ok s (by omega) (x : ℝ) (y : ℝ) (by omega) (by omega) (by omega) (by omega)
    rw [hs.1] at this; exact (Except.ok.inj this).symm
  have hbic : bicubic w h px (x : ℝ) (y : ℝ) = px x y := by
    have bi := Exact.base_nat x (by omega)
    have bj := Exact.base_nat y (by omega)
    have := get_pixel_bicubic_ok s (by omega) (x : ℝ) (y : ℝ) (by omega) (by omega) (by omega) (by omega)
    rw [hs.2] at this; exact (Except.ok.inj this).symm
  unfold rotated
  rw [pos]
  simp only [hin, if_true]
  cases filter with
  | Nearest => simp only [rnd x (by omega), rnd y (by omega), Int.toNat_natCast]
  | Bilinear => exact hbil
  | Bicubic => exact hbic
  | Auto => exact hbic
  | Lanczos3 => exact absurd rfl hf

example : Spec.Unit (⟨1 / 4, 0, 1, 1 / 2⟩ : Col ℝ) := by constructor <;> norm_num

end exact
end D10
