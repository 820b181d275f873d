import Verif.Props.Geometry
import Verif.Lemmas.Moves

/-!
# C144: interlacing again and again
-/

namespace D10
open Spec PixelBuffer

variable {C : Type}

/-- **Offsets add up.** -/
theorem C144_adds (d : C) {b : PixelBuffer C} (hb : WellFormed b) {s t : Nat} (hfit : b.width + (s + t) ≤ 2147483648)
    (hs : s + t < 2147483648) : (interlace b s >>= fun r => interlace r t) = interlace b (s + t) := by
  obtain ⟨px, sh⟩ := wf_shows d hb
  obtain ⟨r, e1, s1⟩ := C22_interlace sh s (by omega) (by omega)
  obtain ⟨r', e2, s2⟩ := C22_interlace s1 t (by omega) (by omega)
  obtain ⟨r2, e3, s3⟩ := C22_interlace sh (s + t) hs hfit
  rw [e1, ok_bind, e2, e3]
  refine congrArg _ (s2.eq (s3.congr fun x y hx hy => ?_))
  by_cases k : y % 2 = 0
  · simp only [if_pos k]
    congr 1
    unfold nearest; omega
  · simp only [if_neg k]
    congr 1
    unfold nearest; omega

/-- **A row as offset.** From an offset of one less than the width on, every even row shows its first pixel everywhere and
every odd row its last. -/
theorem C144_smeared {b : PixelBuffer C} {w h px} (sh : Shows b w h px) {s : Nat} (hs : w ≤ s + 1) (hs2 : s < 2147483648)
    (hfit : w + s ≤ 2147483648) :
    ∃ r, interlace b s = .ok r ∧ Shows r w h fun _ y => if y % 2 = 0 then px 0 y else px (w - 1) y := by
  obtain ⟨r, e, s1⟩ := C22_interlace sh s hs2 hfit
  refine ⟨r, e, s1.congr fun x y hx hy => ?_⟩
  by_cases k : y % 2 = 0
  · simp only [if_pos k]
    congr 1
    unfold nearest; omega
  · simp only [if_neg k]
    congr 1
    unfold nearest; omega

/-- **Turning the picture.** Even rows are moved to the right and odd rows to the left. So upside down is the same before or after
for an odd number of rows, and half a turn for an even number of rows. -/
theorem C144_turned (d : C) {b : PixelBuffer C} (hb : WellFormed b) {s : Nat} (hs : s < 2147483648) (hfit : b.width + s ≤ 2147483648) :
    (b.height % 2 = 1 → (flip_vertical d b >>= fun r => interlace r s) = (interlace b s >>= flip_vertical d)) ∧
    (b.height % 2 = 0 → (rotate180 d b >>= fun r => interlace r s) = (interlace b s >>= rotate180 d)) := by
  obtain ⟨px, sh⟩ := wf_shows d hb
  obtain ⟨r, e1, s1⟩ := C22_interlace sh s hs hfit
  constructor
  · intro odd
    obtain ⟨f, e2, s2⟩ := C13_flip_vertical d sh
    obtain ⟨g, e3, s3⟩ := C22_interlace s2 s hs hfit
    obtain ⟨g', e4, s4⟩ := C13_flip_vertical d s1
    rw [e2, ok_bind, e3, e1, ok_bind, e4]
    refine congrArg _ (s3.eq (s4.congr fun x y hx hy => ?_))
    by_cases k : y % 2 = 0
    · rw [if_pos k, if_pos (by omega)]
    · rw [if_neg k, if_neg (by omega)]
  · intro even
    obtain ⟨f, e2, s2⟩ := C14_rotate180 d sh
    obtain ⟨g, e3, s3⟩ := C22_interlace s2 s hs hfit
    obtain ⟨g', e4, s4⟩ := C14_rotate180 d s1
    rw [e2, ok_bind, e3, e1, ok_bind, e4]
    refine congrArg _ (s3.eq (s4.congr fun x y hx hy => ?_))
    by_cases k : y % 2 = 0
    · rw [if_pos k, if_neg (by omega)]
      congr 1
      unfold nearest; omega
    · rw [if_neg k, if_pos (by omega)]
      congr 1
      unfold nearest; omega

/-- **Mirrored**, the rows move the other way: before and after are different for a picture of one row. -/
theorem C144_mirrored : (flip_horizontal 0 ⟨2, 1, [1, 2]⟩ >>= fun r => interlace r 1) = .ok ⟨2, 1, [2, 2]⟩ ∧
    (interlace ⟨2, 1, [1, 2]⟩ 1 >>= flip_horizontal 0) = .ok ⟨2, 1, [1, 1]⟩ := by decide +kernel

/-! ## The hypotheses can be met -/

example : WellFormed (⟨3, 2, [1, 2, 3, 4, 5, 6]⟩ : PixelBuffer Nat) ∧
    interlace (⟨3, 2, [1, 2, 3, 4, 5, 6]⟩ : PixelBuffer Nat) 1 = .ok ⟨3, 2, [1, 1, 2, 5, 6, 6]⟩ ∧
    interlace (⟨3, 2, [1, 2, 3, 4, 5, 6]⟩ : PixelBuffer Nat) 2 = .ok ⟨3, 2, [1, 1, 1, 6, 6, 6]⟩ :=
  ⟨⟨.inr (by decide), rfl⟩, by decide +kernel, by decide +kernel⟩

end D10
