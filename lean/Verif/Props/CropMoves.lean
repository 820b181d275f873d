import Verif.Props.Geometry

/-!
# C145: cropping and moving
-/

namespace D10
open Spec PixelBuffer

variable {C : Type}

/-- A rectangle inside the picture. -/
theorem crop_inside (d : C) {b : PixelBuffer C} {w h px} (s : Shows b w h px) {ox oy rw rh : Nat} (hx : ox + rw ≤ w) (hy : oy + rh ≤ h)
    (w0 : 0 < rw) (h0 : 0 < rh) : ∃ b', crop d b ox oy rw rh = .ok b' ∧ Shows b' rw rh fun x y => px (ox + x) (oy + y) := by
  obtain ⟨b', e, s'⟩ := C16_crop d s ox oy rw rh
  rw [if_neg (by omega), show min w (ox + rw) - ox = rw by omega, show min h (oy + rh) - oy = rh by omega] at s'
  exact ⟨b', e, s'⟩

/-- **Cropping before or after a flip or turn**: the rectangle has to be moved too. -/
theorem C145_moves (d : C) {b : PixelBuffer C} (hb : WellFormed b) {ox oy rw rh : Nat} (hx : ox + rw ≤ b.width)
    (hy : oy + rh ≤ b.height) (w0 : 0 < rw) (h0 : 0 < rh) :
    (crop d b ox oy rw rh >>= flip_horizontal d) = (flip_horizontal d b >>= fun r => crop d r (b.width - ox - rw) oy rw rh) ∧
    (crop d b ox oy rw rh >>= flip_vertical d) = (flip_vertical d b >>= fun r => crop d r ox (b.height - oy - rh) rw rh) ∧
    (crop d b ox oy rw rh >>= rotate90 d) = (rotate90 d b >>= fun r => crop d r (b.height - oy - rh) ox rh rw) ∧
    (crop d b ox oy rw rh >>= rotate180 d) =
      (rotate180 d b >>= fun r => crop d r (b.width - ox - rw) (b.height - oy - rh) rw rh) ∧
    (crop d b ox oy rw rh >>= rotate270 d) = (rotate270 d b >>= fun r => crop d r oy (b.width - ox - rw) rh rw) := by
  obtain ⟨px, s⟩ := wf_shows d hb
  obtain ⟨c, e, sc⟩ := crop_inside d s hx hy w0 h0
  rw [e]
  simp only [ok_bind]
  refine ⟨?_, ?_, ?_, ?_, ?_⟩
  · obtain ⟨f, e1, s1⟩ := C13_flip_horizontal d s
    obtain ⟨g, e2, s2⟩ := crop_inside d s1 (ox := b.width - ox - rw) (oy := oy) (rw := rw) (rh := rh) (by omega) hy w0 h0
    obtain ⟨k, e3, s3⟩ := C13_flip_horizontal d sc
    rw [e1, ok_bind, e2, e3]
    exact congrArg _ (s3.eq (s2.congr fun x y hx hy => by congr 1; omega))
  · obtain ⟨f, e1, s1⟩ := C13_flip_vertical d s
    obtain ⟨g, e2, s2⟩ := crop_inside d s1 (ox := ox) (oy := b.height - oy - rh) (rw := rw) (rh := rh) hx (by omega) w0 h0
    obtain ⟨k, e3, s3⟩ := C13_flip_vertical d sc
    rw [e1, ok_bind, e2, e3]
    exact congrArg _ (s3.eq (s2.congr fun x y hx hy => by congr 1; omega))
  · obtain ⟨f, e1, s1⟩ := C14_rotate90 d s
    obtain ⟨g, e2, s2⟩ := crop_inside d s1 (ox := b.height - oy - rh) (oy := ox) (rw := rh) (rh := rw) (by omega) hx h0 w0
    obtain ⟨k, e3, s3⟩ := C14_rotate90 d sc
    rw [e1, ok_bind, e2, e3]
    exact congrArg _ (s3.eq (s2.congr fun x y hx hy => by congr 1; omega))
  · obtain ⟨f, e1, s1⟩ := C14_rotate180 d s
    obtain ⟨g, e2, s2⟩ := crop_inside d s1 (ox := b.width - ox - rw) (oy := b.height - oy - rh) (rw := rw) (rh := rh) (by omega) (by omega) w0 h0
    obtain ⟨k, e3, s3⟩ := C14_rotate180 d sc
    rw [e1, ok_bind, e2, e3]
    exact congrArg _ (s3.eq (s2.congr fun x y hx hy => by congr 1 <;> omega))
  · obtain ⟨f, e1, s1⟩ := C14_rotate270 d s
    obtain ⟨g, e2, s2⟩ := crop_inside d s1 (ox := oy) (oy := b.width - ox - rw) (rw := rh) (rh := rw) hy (by omega) h0 w0
    obtain ⟨k, e3, s3⟩ := C14_rotate270 d sc
    rw [e1, ok_bind, e2, e3]
    exact congrArg _ (s3.eq (s2.congr fun x y hx hy => by congr 1; omega))

/-- The empty picture. -/
theorem shows_empty {b b' : PixelBuffer C} {px px' : Nat → Nat → C} (s : Shows b 0 0 px) (s' : Shows b' 0 0 px') : b = b' :=
  s.eq (s'.congr fun _ _ hx => absurd hx (Nat.not_lt_zero _))

/-- **Cropping twice**, with any rectangles, also those that reach beyond the picture or miss it: one crop by the part of the second
rectangle that lies in the first. -/
theorem C145_twice (d : C) {b : PixelBuffer C} (hb : WellFormed b) (ox oy rw rh ox' oy' rw' rh' : Nat) :
    (crop d b ox oy rw rh >>= fun r => crop d r ox' oy' rw' rh') =
      crop d b (ox + ox') (oy + oy') (min rw' (rw - ox')) (min rh' (rh - oy')) := by
  obtain ⟨px, s⟩ := wf_shows d hb
  obtain ⟨c, e, sc⟩ := C16_crop d s ox oy rw rh
  obtain ⟨g, e2, s2⟩ := C16_crop d s (ox + ox') (oy + oy') (min rw' (rw - ox')) (min rh' (rh - oy'))
  rw [e, ok_bind, e2]
  by_cases k : min b.width (ox + rw) ≤ ox ∨ min b.height (oy + rh) ≤ oy
  · rw [if_pos k] at sc
    rw [if_pos (by omega)] at s2
    obtain ⟨f, e3, s3⟩ := C16_crop d sc ox' oy' rw' rh'
    rw [if_pos (by omega)] at s3
    rw [e3]
    exact congrArg _ (shows_empty s3 s2)
  · rw [if_neg k] at sc
    obtain ⟨f, e3, s3⟩ := C16_crop d sc ox' oy' rw' rh'
    rw [e3]
    by_cases k' : min (min b.width (ox + rw) - ox) (ox' + rw') ≤ ox' ∨ min (min b.height (oy + rh) - oy) (oy' + rh') ≤ oy'
    · rw [if_pos k'] at s3
      rw [if_pos (by omega)] at s2
      exact congrArg _ (shows_empty s3 s2)
    · rw [if_neg k'] at s3
      rw [if_neg (by omega)] at s2
      have ew : min b.width (ox + ox' + min rw' (rw - ox')) - (ox + ox') = min (min b.width (ox + rw) - ox) (ox' + rw') - ox' := by omega
      have eh : min b.height (oy + oy' + min rh' (rh - oy')) - (oy + oy') = min (min b.height (oy + rh) - oy) (oy' + rh') - oy' := by omega
      rw [ew, eh] at s2
      exact congrArg _ (s3.eq (s2.congr fun x y _ _ => by rw [Nat.add_assoc, Nat.add_assoc]))

/-- **The order of two crops** does not matter if both rectangles start at the top left corner. -/
theorem C145_corner (d : C) {b : PixelBuffer C} (hb : WellFormed b) (rw rh rw' rh' : Nat) :
    (crop d b 0 0 rw rh >>= fun r => crop d r 0 0 rw' rh') = (crop d b 0 0 rw' rh' >>= fun r => crop d r 0 0 rw rh) := by
  rw [C145_twice d hb, C145_twice d hb, Nat.sub_zero, Nat.sub_zero, Nat.sub_zero, Nat.sub_zero, Nat.min_comm rw', Nat.min_comm rh']

/-! ## The hypotheses can be met -/

example : WellFormed (⟨3, 2, [1, 2, 3, 4, 5, 6]⟩ : PixelBuffer Nat) ∧
    crop 0 (⟨3, 2, [1, 2, 3, 4, 5, 6]⟩ : PixelBuffer Nat) 1 0 2 2 = .ok ⟨2, 2, [2, 3, 5, 6]⟩ ∧
    (crop 0 (⟨3, 2, [1, 2, 3, 4, 5, 6]⟩ : PixelBuffer Nat) 1 0 2 2 >>= flip_horizontal 0) = .ok ⟨2, 2, [3, 2, 6, 5]⟩ :=
  ⟨⟨.inr (by decide), rfl⟩, by decide +kernel, by decide +kernel⟩

end D10
