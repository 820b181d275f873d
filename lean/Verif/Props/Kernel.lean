import Verif.Props.Buffer

/-! # C09: the window of pixels handed to kernels and filters -/

namespace D10

open Spec PixelBuffer

variable {T : Type}

theorem C09_get_kernel {b : PixelBuffer T} {w h px} (s : Shows b w h px) (hne : 0 < w)
    (N : Nat) (x y : Int) (hN : N < 2147483648)
    (hx0 : -2147483648 ≤ x - (N / 2 : Nat)) (hx1 : x + N < 2147483648)
    (hy0 : -2147483648 ≤ y - (N / 2 : Nat)) (hy1 : y + N < 2147483648) :
    b.get_kernel N x y = .ok (window w h px N x y) := by
  have hoff : (asI32 N).tdiv 2 = ((N / 2 : Nat) : Int) := by
    rw [asI32_of_lt hN, Int.tdiv_eq_ediv_of_nonneg (by omega)]; omega
  have hw := s.size.width_le
  have hh := s.size.height_le
  unfold get_kernel
  simp only [hoff]
  rw [i32_ok hx0 (by omega), ok_bind, i32_ok hy0 (by omega), ok_bind]
  -- the slow path gives the window for every position
  have slow : (List.range N).mapM (fun ty => (List.range N).mapM (fun tx => do
      let px ← i32 (asI32 tx + x)
      let px ← i32 (px - ((N / 2 : Nat) : Int))
      let py ← i32 (asI32 ty + y)
      let py ← i32 (py - ((N / 2 : Nat) : Int))
      b.get_pixel_clamped px py)) = .ok (window w h px N x y) := by
    unfold window
    apply mapM_ok
    intro ty hty
    have hty : ty < N := by simpa using hty
    apply mapM_ok
    intro tx htx
    have htx : tx < N := by simpa using htx
    rw [asI32_of_lt (show tx < 2147483648 by omega), asI32_of_lt (show ty < 2147483648 by omega),
      i32_ok (by omega) (by omega), ok_bind, i32_ok (by omega) (by omega), ok_bind,
      i32_ok (by omega) (by omega), ok_bind, i32_ok (by omega) (by omega), ok_bind,
      C04_get_pixel_clamped s hne]
    rw [show (tx : Int) + x = x + tx by omega, show (ty : Int) + y = y + ty by omega]
  by_cases hs : b.is_in_image (x - ((N / 2 : Nat) : Int)) (y - ((N / 2 : Nat) : Int)) = true
  · have hs' := (C05_is_in_image s _ _).1 hs
    rw [if_pos hs, i32_ok (by omega) (by omega), ok_bind, i32_ok (by omega) (by omega), ok_bind]
    by_cases he : b.is_in_image (x + ((N / 2 : Nat) : Int)) (y + ((N / 2 : Nat) : Int)) = true
    · have he' := (C05_is_in_image s _ _).1 he
      simp only [he, pure_eq_ok, ok_bind, if_true]
      unfold window
      apply mapM_ok
      intro ty hty
      have hty : ty < N := by simpa using hty
      rw [s.width, s.pixels, rows_slice (by omega) (by omega)]
      congr 1
      apply List.map_congr_left
      intro tx htx
      have htx : tx < N := by simpa using htx
      congr 1
      · unfold nearest; omega
      · unfold nearest; omega
    · simp only [he, pure_eq_ok, ok_bind]
      exact slow
  · simp only [if_neg hs, pure_eq_ok, ok_bind]
    exact slow

/-- For a window centred on a pixel of the image no size restriction beyond 2^30 is needed. -/
theorem C09_get_kernel_in_image {b : PixelBuffer T} {w h px} (s : Shows b w h px)
    (N x y : Nat) (hN : N ≤ 1073741824) (hx : x < w) (hy : y < h) :
    b.get_kernel N x y = .ok (window w h px N x y) := by
  have hw := s.size.width_le
  have hh := s.size.height_le
  exact C09_get_kernel s (by omega) N x y (by omega) (by omega) (by omega) (by omega) (by omega)

/-- The window of an empty image: reading anything but a 0-sized window panics. -/
theorem C09_get_kernel_empty {b : PixelBuffer T} {px} (s : Shows b 0 0 px) (N : Nat) (x y : Int)
    (hN : 0 < N) : ∃ e, b.get_kernel N x y = .error e := by
  unfold get_kernel
  have hni : ∀ x y, b.is_in_image x y = false := by
    intro x y
    have := mt (C05_is_in_image s x y).1
    simp only [Bool.not_eq_true] at this
    exact this (by omega)
  simp only [hni]
  cases i32 (x - (asI32 N).tdiv 2) with
  | error e => exact ⟨e, rfl⟩
  | ok sx =>
    rw [ok_bind]
    cases i32 (y - (asI32 N).tdiv 2) with
    | error e => exact ⟨e, rfl⟩
    | ok sy =>
      simp only [ok_bind, Bool.false_eq_true, if_false, pure_eq_ok]
      apply mapM_error _ _ 0 (by simpa using hN)
      intro r hr
      obtain ⟨e, he⟩ : ∃ e, (List.range N).mapM (fun tx => do
          let px ← i32 (asI32 tx + x)
          let px ← i32 (px - (asI32 N).tdiv 2)
          let py ← i32 (asI32 0 + y)
          let py ← i32 (py - (asI32 N).tdiv 2)
          b.get_pixel_clamped px py) = .error e := by
        apply mapM_error _ _ 0 (by simpa using hN)
        intro r hr
        simp only [C04_get_pixel_clamped_empty s, bind, Except.bind] at hr
        repeat' split at hr
        all_goals cases hr
      rw [he] at hr; cases hr

/-- C09: the variant whose size is chosen at run time returns the same. -/
theorem C09_get_kernel_dyn (b : PixelBuffer T) (N : Nat) (x y : Int) :
    b.get_kernel_dyn x y N = b.get_kernel N x y := rfl

example : (PixelBuffer.mk 3 3 [1, 2, 3, 4, 5, 6, 7, 8, 9]).get_kernel_dyn 2 0 3 =
    .ok [[2, 3, 3], [2, 3, 3], [5, 6, 6]] := by rfl

example : (PixelBuffer.mk 3 3 [1, 2, 3, 4, 5, 6, 7, 8, 9]).get_kernel 3 0 2 =
    .ok [[4, 4, 5], [7, 7, 8], [7, 7, 8]] := by rfl

example : (PixelBuffer.mk 3 3 [1, 2, 3, 4, 5, 6, 7, 8, 9]).get_kernel 3 1 1 =
    .ok [[1, 2, 3], [4, 5, 6], [7, 8, 9]] := by rfl

end D10
