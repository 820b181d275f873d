import Verif.Props.Buffer
import Verif.Lemmas.Geometry

/-!
# Flips, quarter turns, crop, interlace, compose (C13 - C17, C22, C38)

Model: `Verif/Model/Geometry.lean`.
-/

namespace D10

open Spec PixelBuffer

variable {C : Type}

/-! ## C13 Flips -/

theorem C13_flip_horizontal (d : C) {b : PixelBuffer C} {w h px} (s : Shows b w h px) :
    ∃ b', flip_horizontal d b = .ok b' ∧ Shows b' w h (fun x y => px (w - 1 - x) y) := by
  have hm := s.size.mul_le
  obtain ⟨b', h1, h2⟩ := new_from_raw_rows (px := fun x y => px (w - 1 - x) y) s.size
  refine ⟨b', ?_, h2⟩
  unfold flip_horizontal
  simp only [s.width, s.height, s.length]
  rw [moved (w' := w) (h' := h) (px := px) (dst := fun x y => (w - 1 - x, y))
    (src := fun x y => (w - 1 - x, y)) rfl
    (fun x y hx hy => ⟨by omega, hy, by simp only [Prod.mk.injEq, and_true]; omega⟩)
    (fun x y hx hy => ⟨by simp only; omega, hy, by simp only [Prod.mk.injEq, and_true]; omega⟩)
    _ _ _ (by simp)]
  · exact h1
  · intro x hx y hy l hl
    have hlt := idx_lt hx hy
    have hlt' := idx_lt (show w - 1 - x < w by omega) hy
    have hyw : y * w ≤ x + y * w := Nat.le_add_left _ _
    rw [u32_ok (show y * w < 4294967296 by omega), ok_bind, u32_ok (by omega), ok_bind,
      index_ok (s.getElem? hx hy), ok_bind, usub_ok (by omega), ok_bind, usub_ok (by omega), ok_bind,
      ok_bind, show w - x - 1 = w - 1 - x by omega, u32_ok (by omega), ok_bind,
      setIndex_ok (by omega)]

theorem C13_flip_vertical (d : C) {b : PixelBuffer C} {w h px} (s : Shows b w h px) :
    ∃ b', flip_vertical d b = .ok b' ∧ Shows b' w h (fun x y => px x (h - 1 - y)) := by
  have hm := s.size.mul_le
  obtain ⟨b', h1, h2⟩ := new_from_raw_rows (px := fun x y => px x (h - 1 - y)) s.size
  refine ⟨b', ?_, h2⟩
  unfold flip_vertical
  simp only [s.width, s.height, s.length]
  rw [moved (w' := w) (h' := h) (px := px) (dst := fun x y => (x, h - 1 - y))
    (src := fun x y => (x, h - 1 - y)) rfl
    (fun x y hx hy => ⟨hx, by simp only; omega, by simp only [Prod.mk.injEq, true_and]; omega⟩)
    (fun x y hx hy => ⟨hx, by simp only; omega, by simp only [Prod.mk.injEq, true_and]; omega⟩)
    _ _ _ (by simp)]
  · exact h1
  · intro x hx y hy l hl
    have hlt := idx_lt hx hy
    have hlt' := idx_lt hx (show h - 1 - y < h by omega)
    have hyw : y * w ≤ x + y * w := Nat.le_add_left _ _
    have hyw' : (h - 1 - y) * w ≤ x + (h - 1 - y) * w := Nat.le_add_left _ _
    rw [u32_ok (show y * w < 4294967296 by omega), ok_bind, u32_ok (by omega), ok_bind,
      index_ok (s.getElem? hx hy), ok_bind, usub_ok (by omega), ok_bind, usub_ok (by omega), ok_bind,
      show h - y - 1 = h - 1 - y by omega, u32_ok (by omega), ok_bind, u32_ok (by omega), ok_bind,
      setIndex_ok (by omega)]

/-! ## C14 Quarter turns -/

/-- Clockwise quarter turn: new column `x`, row `y` shows the old column `y`, row `h-1-x`. -/
theorem C14_rotate90 (d : C) {b : PixelBuffer C} {w h px} (s : Shows b w h px) :
    ∃ b', rotate90 d b = .ok b' ∧ Shows b' h w (fun x y => px y (h - 1 - x)) := by
  have hm := s.size.mul_le
  obtain ⟨b', h1, h2⟩ := new_from_raw_rows (px := fun x y => px y (h - 1 - x)) s.size.swap
  refine ⟨b', ?_, h2⟩
  unfold rotate90
  simp only [s.width, s.height, s.length]
  rw [moved (w' := h) (h' := w) (px := px) (dst := fun x y => (h - 1 - y, x))
    (src := fun x y => (y, h - 1 - x)) (Nat.mul_comm _ _)
    (fun x y hx hy => ⟨by simp only; omega, hx, by simp only [Prod.mk.injEq, true_and]; omega⟩)
    (fun x y hx hy => ⟨hy, by simp only; omega, by simp only [Prod.mk.injEq, and_true]; omega⟩)
    _ _ _ (by simp)]
  · exact h1
  · intro x hx y hy l hl
    have hlt := idx_lt hx hy
    have hlt' := idx_lt (show h - 1 - y < h by omega) hx
    have hwh : h * w = w * h := Nat.mul_comm _ _
    have hyw : y * w ≤ x + y * w := Nat.le_add_left _ _
    have hyw' : x * h ≤ h - 1 - y + x * h := Nat.le_add_left _ _
    rw [usub_ok (by omega), ok_bind, usub_ok (by omega), ok_bind,
      u32_ok (show y * w < 4294967296 by omega), ok_bind, u32_ok (by omega), ok_bind,
      index_ok (s.getElem? hx hy), ok_bind, show h - y - 1 = h - 1 - y by omega,
      u32_ok (show x * h < 4294967296 by omega), ok_bind, u32_ok (by omega), ok_bind,
      setIndex_ok (by omega)]

theorem C14_rotate180 (d : C) {b : PixelBuffer C} {w h px} (s : Shows b w h px) :
    ∃ b', rotate180 d b = .ok b' ∧ Shows b' w h (fun x y => px (w - 1 - x) (h - 1 - y)) := by
  have hm := s.size.mul_le
  obtain ⟨b', h1, h2⟩ := new_from_raw_rows (px := fun x y => px (w - 1 - x) (h - 1 - y)) s.size
  refine ⟨b', ?_, h2⟩
  unfold rotate180
  simp only [s.width, s.height, s.length]
  rw [moved (w' := w) (h' := h) (px := px) (dst := fun x y => (w - 1 - x, h - 1 - y))
    (src := fun x y => (w - 1 - x, h - 1 - y)) rfl
    (fun x y hx hy => ⟨by simp only; omega, by simp only; omega,
      by simp only [Prod.mk.injEq]; omega⟩)
    (fun x y hx hy => ⟨by simp only; omega, by simp only; omega,
      by simp only [Prod.mk.injEq]; omega⟩)
    _ _ _ (by simp)]
  · exact h1
  · intro x hx y hy l hl
    have hlt := idx_lt hx hy
    have hlt' := idx_lt (show w - 1 - x < w by omega) (show h - 1 - y < h by omega)
    have hyw : y * w ≤ x + y * w := Nat.le_add_left _ _
    have hyw' : (h - 1 - y) * w ≤ w - 1 - x + (h - 1 - y) * w := Nat.le_add_left _ _
    rw [usub_ok (by omega), ok_bind, usub_ok (by omega), ok_bind, usub_ok (by omega), ok_bind,
      usub_ok (by omega), ok_bind, u32_ok (show y * w < 4294967296 by omega), ok_bind,
      u32_ok (by omega), ok_bind, index_ok (s.getElem? hx hy), ok_bind,
      show h - y - 1 = h - 1 - y by omega, show w - x - 1 = w - 1 - x by omega, u32_ok (by omega),
      ok_bind, u32_ok (by omega), ok_bind, setIndex_ok (by omega)]

theorem C14_rotate270 (d : C) {b : PixelBuffer C} {w h px} (s : Shows b w h px) :
    ∃ b', rotate270 d b = .ok b' ∧ Shows b' h w (fun x y => px (w - 1 - y) x) := by
  have hm := s.size.mul_le
  obtain ⟨b', h1, h2⟩ := new_from_raw_rows (px := fun x y => px (w - 1 - y) x) s.size.swap
  refine ⟨b', ?_, h2⟩
  unfold rotate270
  simp only [s.width, s.height, s.length]
  rw [moved (w' := h) (h' := w) (px := px) (dst := fun x y => (y, w - 1 - x))
    (src := fun x y => (w - 1 - y, x)) (Nat.mul_comm _ _)
    (fun x y hx hy => ⟨hy, by simp only; omega, by simp only [Prod.mk.injEq, and_true]; omega⟩)
    (fun x y hx hy => ⟨by simp only; omega, hx, by simp only [Prod.mk.injEq, true_and]; omega⟩)
    _ _ _ (by simp)]
  · exact h1
  · intro x hx y hy l hl
    have hlt := idx_lt hx hy
    have hlt' := idx_lt hy (show w - 1 - x < w by omega)
    have hwh : h * w = w * h := Nat.mul_comm _ _
    have hyw : y * w ≤ x + y * w := Nat.le_add_left _ _
    have hyw' : (w - 1 - x) * h ≤ y + (w - 1 - x) * h := Nat.le_add_left _ _
    rw [usub_ok (by omega), ok_bind, usub_ok (by omega), ok_bind,
      u32_ok (show y * w < 4294967296 by omega), ok_bind, u32_ok (by omega), ok_bind,
      index_ok (s.getElem? hx hy), ok_bind, show w - x - 1 = w - 1 - x by omega,
      u32_ok (show (w - 1 - x) * h < 4294967296 by omega), ok_bind, u32_ok (by omega), ok_bind,
      setIndex_ok (by omega)]

/-! ## C13, C14: laws, stated on the operations only -/

theorem wf_shows {b : PixelBuffer C} (d : C) (hb : WellFormed b) :
    ∃ px, Shows b b.width b.height px :=
  haveI : Inhabited C := ⟨d⟩; ⟨_, shows_of_wellFormed hb⟩

theorem C13_flip_horizontal_involution (d : C) {b : PixelBuffer C} (hb : WellFormed b) :
    (flip_horizontal d b >>= flip_horizontal d) = .ok b := by
  obtain ⟨px, s⟩ := wf_shows d hb
  obtain ⟨b1, e1, s1⟩ := C13_flip_horizontal d s
  obtain ⟨b2, e2, s2⟩ := C13_flip_horizontal d s1
  rw [e1, ok_bind, e2]
  congr 1
  exact (s2.congr (px' := px) (fun x y hx hy => by congr 1; omega)).eq s

theorem C13_flip_vertical_involution (d : C) {b : PixelBuffer C} (hb : WellFormed b) :
    (flip_vertical d b >>= flip_vertical d) = .ok b := by
  obtain ⟨px, s⟩ := wf_shows d hb
  obtain ⟨b1, e1, s1⟩ := C13_flip_vertical d s
  obtain ⟨b2, e2, s2⟩ := C13_flip_vertical d s1
  rw [e1, ok_bind, e2]
  congr 1
  exact (s2.congr (px' := px) (fun x y hx hy => by congr 1; omega)).eq s

theorem C13_flips_commute (d : C) {b : PixelBuffer C} (hb : WellFormed b) :
    (flip_vertical d b >>= flip_horizontal d) = (flip_horizontal d b >>= flip_vertical d) := by
  obtain ⟨px, s⟩ := wf_shows d hb
  obtain ⟨b1, e1, s1⟩ := C13_flip_vertical d s
  obtain ⟨b2, e2, s2⟩ := C13_flip_horizontal d s1
  obtain ⟨b3, e3, s3⟩ := C13_flip_horizontal d s
  obtain ⟨b4, e4, s4⟩ := C13_flip_vertical d s3
  rw [e1, ok_bind, e2, e3, ok_bind, e4]
  exact congrArg _ (s2.eq s4)

theorem C14_rotate180_eq_flips (d : C) {b : PixelBuffer C} (hb : WellFormed b) :
    rotate180 d b = (flip_vertical d b >>= flip_horizontal d) := by
  obtain ⟨px, s⟩ := wf_shows d hb
  obtain ⟨b1, e1, s1⟩ := C13_flip_vertical d s
  obtain ⟨b2, e2, s2⟩ := C13_flip_horizontal d s1
  obtain ⟨b3, e3, s3⟩ := C14_rotate180 d s
  rw [e1, ok_bind, e2, e3]
  exact congrArg _ (s3.eq s2)

theorem C14_rotate90_twice (d : C) {b : PixelBuffer C} (hb : WellFormed b) :
    (rotate90 d b >>= rotate90 d) = rotate180 d b := by
  obtain ⟨px, s⟩ := wf_shows d hb
  obtain ⟨b1, e1, s1⟩ := C14_rotate90 d s
  obtain ⟨b2, e2, s2⟩ := C14_rotate90 d s1
  obtain ⟨b3, e3, s3⟩ := C14_rotate180 d s
  rw [e1, ok_bind, e2, e3]
  exact congrArg _ (s2.eq s3)

theorem C14_rotate180_involution (d : C) {b : PixelBuffer C} (hb : WellFormed b) :
    (rotate180 d b >>= rotate180 d) = .ok b := by
  obtain ⟨px, s⟩ := wf_shows d hb
  obtain ⟨b1, e1, s1⟩ := C14_rotate180 d s
  obtain ⟨b2, e2, s2⟩ := C14_rotate180 d s1
  rw [e1, ok_bind, e2]
  congr 1
  exact (s2.congr (px' := px) (fun x y hx hy => by congr 1 <;> omega)).eq s

theorem C14_rotate90_rotate270 (d : C) {b : PixelBuffer C} (hb : WellFormed b) :
    (rotate90 d b >>= rotate270 d) = .ok b ∧ (rotate270 d b >>= rotate90 d) = .ok b := by
  obtain ⟨px, s⟩ := wf_shows d hb
  constructor
  · obtain ⟨b1, e1, s1⟩ := C14_rotate90 d s
    obtain ⟨b2, e2, s2⟩ := C14_rotate270 d s1
    rw [e1, ok_bind, e2]
    congr 1
    exact (s2.congr (px' := px) (fun x y hx hy => by congr 1; omega)).eq s
  · obtain ⟨b1, e1, s1⟩ := C14_rotate270 d s
    obtain ⟨b2, e2, s2⟩ := C14_rotate90 d s1
    rw [e1, ok_bind, e2]
    congr 1
    exact (s2.congr (px' := px) (fun x y hx hy => by congr 1; omega)).eq s

theorem C14_rotate90_four (d : C) {b : PixelBuffer C} (hb : WellFormed b) :
    (((rotate90 d b >>= rotate90 d) >>= rotate90 d) >>= rotate90 d) = .ok b := by
  obtain ⟨px, s⟩ := wf_shows d hb
  obtain ⟨b1, e1, s1⟩ := C14_rotate180 d s
  rw [C14_rotate90_twice d hb, e1, ok_bind, C14_rotate90_twice d s1.wellFormed,
    ← C14_rotate180_involution d hb, e1, ok_bind]

example : rotate90 0 (PixelBuffer.mk 3 2 [1, 2, 3, 4, 5, 6]) = .ok ⟨2, 3, [4, 1, 5, 2, 6, 3]⟩ ∧
    WellFormed (PixelBuffer.mk 3 2 [1, 2, 3, 4, 5, 6]) :=
  ⟨rfl, by simp [WellFormed, ValidSize]⟩

/-! ## C15 Nothing is lost or duplicated -/

theorem C15_permute (d : C) {b b' : PixelBuffer C} (hb : WellFormed b)
    (h : flip_horizontal d b = .ok b' ∨ flip_vertical d b = .ok b' ∨ rotate90 d b = .ok b' ∨
      rotate180 d b = .ok b' ∨ rotate270 d b = .ok b') : b'.data.Perm b.data := by
  obtain ⟨px, s⟩ := wf_shows d hb
  rw [s.pixels]
  rcases h with h | h | h | h | h
  · obtain ⟨b1, e1, s1⟩ := C13_flip_horizontal d s
    rw [h] at e1; cases e1
    rw [s1.pixels]
    exact rows_perm (dst := fun x y => (b.width - 1 - x, y))
      (src := fun x y => (b.width - 1 - x, y)) rfl
      (fun x y hx hy => ⟨by simp only; omega, hy, by simp only [Prod.mk.injEq, and_true]; omega⟩)
  · obtain ⟨b1, e1, s1⟩ := C13_flip_vertical d s
    rw [h] at e1; cases e1
    rw [s1.pixels]
    exact rows_perm (dst := fun x y => (x, b.height - 1 - y))
      (src := fun x y => (x, b.height - 1 - y)) rfl
      (fun x y hx hy => ⟨hx, by simp only; omega, by simp only [Prod.mk.injEq, true_and]; omega⟩)
  · obtain ⟨b1, e1, s1⟩ := C14_rotate90 d s
    rw [h] at e1; cases e1
    rw [s1.pixels]
    exact rows_perm (dst := fun x y => (b.height - 1 - y, x))
      (src := fun x y => (y, b.height - 1 - x)) (Nat.mul_comm _ _)
      (fun x y hx hy => ⟨hy, by simp only; omega, by simp only [Prod.mk.injEq, and_true]; omega⟩)
  · obtain ⟨b1, e1, s1⟩ := C14_rotate180 d s
    rw [h] at e1; cases e1
    rw [s1.pixels]
    exact rows_perm (dst := fun x y => (b.width - 1 - x, b.height - 1 - y))
      (src := fun x y => (b.width - 1 - x, b.height - 1 - y)) rfl
      (fun x y hx hy => ⟨by simp only; omega, by simp only; omega,
        by simp only [Prod.mk.injEq]; omega⟩)
  · obtain ⟨b1, e1, s1⟩ := C14_rotate270 d s
    rw [h] at e1; cases e1
    rw [s1.pixels]
    exact rows_perm (dst := fun x y => (y, b.width - 1 - x))
      (src := fun x y => (b.width - 1 - y, x)) (Nat.mul_comm _ _)
      (fun x y hx hy => ⟨by simp only; omega, hx, by simp only [Prod.mk.injEq, true_and]; omega⟩)

/-! ## C16 Crop -/

/-- The columns of the result are those `x` of the source with `ox ≤ x < ox + rw`; likewise for the
rows; if there are none the result is the empty image. Never a panic. -/
theorem C16_crop (d : C) {b : PixelBuffer C} {w h px} (s : Shows b w h px) (ox oy rw rh : Nat) :
    ∃ b', crop d b ox oy rw rh = .ok b' ∧
      (if min w (ox + rw) ≤ ox ∨ min h (oy + rh) ≤ oy then Shows b' 0 0 px
       else Shows b' (min w (ox + rw) - ox) (min h (oy + rh) - oy)
          (fun x y => px (ox + x) (oy + y))) := by
  have hm := s.size.mul_le
  have hw := s.size.width_le
  have hh := s.size.height_le
  unfold crop
  by_cases he : b.is_empty = true
  · have hwh : w = 0 ∧ h = 0 := by
      simp only [is_empty, s.width, s.height, Bool.and_eq_true, beq_iff_eq] at he; exact he
    refine ⟨b, by rw [if_pos he]; rfl, ?_⟩
    obtain ⟨rfl, rfl⟩ := hwh
    rw [if_pos (by omega)]
    exact s
  · have hwh : 0 < w ∧ 0 < h := by
      simp only [is_empty, s.width, s.height, Bool.and_eq_true, beq_iff_eq] at he
      rcases s.size with h | h
      · exact absurd h he
      · exact ⟨h.1, h.2.1⟩
    rw [if_neg he]
    simp only [s.width, s.height]
    rw [usub_ok (by omega), ok_bind, usub_ok (by omega), ok_bind]
    have hcw : min rw (w - min ox w) = min w (ox + rw) - ox := by omega
    have hch : min rh (h - min oy h) = min h (oy + rh) - oy := by omega
    rw [hcw, hch]
    by_cases hz : min w (ox + rw) ≤ ox ∨ min h (oy + rh) ≤ oy
    · have : (min w (ox + rw) - ox == 0 || min h (oy + rh) - oy == 0) = true := by
        simp only [Bool.or_eq_true, beq_iff_eq]; omega
      obtain ⟨b', e, s'⟩ := (C02_new d 0 0).1 (.inl ⟨rfl, rfl⟩)
      refine ⟨b', ?_, ?_⟩
      · simp only [this, if_true, e]
      · rw [if_pos hz]
        exact s'.congr (fun x y hx hy => by omega)
    · have hzb : (min w (ox + rw) - ox == 0 || min h (oy + rh) - oy == 0) = false := by
        simp only [Bool.or_eq_false_iff, beq_eq_false_iff_ne]; omega
      simp only [if_neg hz]
      generalize hcwd : min w (ox + rw) - ox = cw at *
      generalize hchd : min h (oy + rh) - oy = ch at *
      have hox : min ox w = ox := by omega
      have hoy : min oy h = oy := by omega
      have hcm : cw * ch ≤ w * h := Nat.mul_le_mul (by omega) (by omega)
      have hsz : ValidSize cw ch := .inr ⟨by omega, by omega, by omega⟩
      obtain ⟨b', e, s'⟩ := new_from_raw_rows (px := fun x y => px (ox + x) (oy + y)) hsz
      refine ⟨b', ?_, s'⟩
      simp only [hzb, Bool.false_eq_true, if_false, hox, hoy]
      rw [u32_ok (by omega), ok_bind]
      have key : ∀ n, n ≤ ch → forRange n ([] : List C) (fun y data => do
          let offset ← u32 ((← u32 ((← u32 (oy + y)) * w)) + ox)
          let row ← slice b.data offset (offset + cw)
          return data ++ row) = .ok (rows cw n (fun x y => px (ox + x) (oy + y))) := by
        intro n hn
        induction n with
        | zero => rfl
        | succ n ih =>
          unfold forRange at ih ⊢
          rw [List.range_succ, List.foldlM_append, ih (by omega), ok_bind]
          have hlt := idx_lt (w := w) (h := h) (show ox < w by omega) (show oy + n < h by omega)
          simp only [List.foldlM_cons, List.foldlM_nil]
          rw [u32_ok (show oy + n < 4294967296 by omega), ok_bind, u32_ok (by omega), ok_bind,
            u32_ok (by omega), ok_bind, s.pixels, Nat.mul_comm (oy + n) w,
            rows_slice (by omega) (by omega), ok_bind, rows_succ]
          rfl
      rw [key ch (Nat.le_refl _), ok_bind]
      exact e

/-! ## C17 Crop composition -/

theorem C17_crop_crop (d : C) {b : PixelBuffer C} (hb : WellFormed b)
    (ox oy w1 h1 ox2 oy2 w2 h2 : Nat) (hw : ox2 + w2 ≤ w1) (hh : oy2 + h2 ≤ h1) :
    (crop d b ox oy w1 h1 >>= fun c => crop d c ox2 oy2 w2 h2) =
      crop d b (ox + ox2) (oy + oy2) w2 h2 := by
  obtain ⟨px, s⟩ := wf_shows d hb
  obtain ⟨b1, e1, s1⟩ := C16_crop d s ox oy w1 h1
  obtain ⟨b3, e3, s3⟩ := C16_crop d s (ox + ox2) (oy + oy2) w2 h2
  rw [e1, e3, ok_bind]
  split at s1
  · obtain ⟨b2, e2, s2⟩ := C16_crop d s1 ox2 oy2 w2 h2
    rw [e2]
    rw [if_pos (by omega)] at s2 s3
    exact congrArg _ (s2.eq s3)
  · obtain ⟨b2, e2, s2⟩ := C16_crop d s1 ox2 oy2 w2 h2
    rw [e2]
    split at s3
    · rw [if_pos (by omega)] at s2
      exact congrArg _ ((s2.congr (px' := px) (fun x y hx hy => by omega)).eq s3)
    · rw [if_neg (by omega)] at s2
      have a1 : min (min b.width (ox + w1) - ox) (ox2 + w2) - ox2 =
          min b.width (ox + ox2 + w2) - (ox + ox2) := by omega
      have a2 : min (min b.height (oy + h1) - oy) (oy2 + h2) - oy2 =
          min b.height (oy + oy2 + h2) - (oy + oy2) := by omega
      rw [a1, a2] at s2
      refine congrArg _ ((s2.congr (fun x y hx hy => ?_)).eq s3)
      rw [Nat.add_assoc, Nat.add_assoc]

/-- Cropping to (at least) the full size changes nothing. -/
theorem C17_crop_full (d : C) {b : PixelBuffer C} (hb : WellFormed b) (w1 h1 : Nat)
    (hw : b.width ≤ w1) (hh : b.height ≤ h1) : crop d b 0 0 w1 h1 = .ok b := by
  obtain ⟨px, s⟩ := wf_shows d hb
  obtain ⟨b1, e1, s1⟩ := C16_crop d s 0 0 w1 h1
  rw [e1]
  congr 1
  split at s1
  · have : b.width = 0 ∧ b.height = 0 := by
      rcases hb.1 with h | h
      · exact h
      · omega
    rw [this.1, this.2] at s
    exact s1.eq s
  · rw [show min b.width (0 + w1) - 0 = b.width by omega,
      show min b.height (0 + h1) - 0 = b.height by omega] at s1
    exact (s1.congr (px' := px) (fun x y hx hy => by rw [Nat.zero_add, Nat.zero_add])).eq s

example : crop 0 (PixelBuffer.mk 3 2 [1, 2, 3, 4, 5, 6]) 1 0 7 1 = .ok ⟨2, 1, [2, 3]⟩ := rfl

/-! ## C22 Interlace -/

theorem C22_interlace {b : PixelBuffer C} {w h px} (s : Shows b w h px) (off : Nat)
    (hoff : off < 2147483648) (hfit : w + off ≤ 2147483648) :
    ∃ b', interlace b off = .ok b' ∧
      Shows b' w h (fun x y =>
        if y % 2 = 0 then px (nearest w (x - off)) y else px (nearest w (x + off)) y) := by
  have hw := s.size.width_le
  have hh := s.size.height_le
  unfold interlace
  rw [s.width, s.height]
  refine (C02_new_from_func w h _ _ ?_).1 s.size
  intro x y hx hy
  have hny : nearest h (y : Int) = y := by unfold nearest; omega
  simp only [asI32_of_lt hoff, asI32_of_lt (show x < 2147483648 by omega),
    asI32_of_lt (show y < 2147483648 by omega)]
  by_cases hp : y % 2 = 0
  · simp only [hp, beq_self_eq_true, if_true]
    rw [i32_ok (by omega) (by omega), ok_bind, C04_get_pixel_clamped s (by omega), hny]
  · simp only [hp, beq_iff_eq, if_false]
    rw [i32_ok (by omega) (by omega), ok_bind, C04_get_pixel_clamped s (by omega), hny]

theorem C22_interlace_zero (d : C) {b : PixelBuffer C} (hb : WellFormed b) :
    interlace b 0 = .ok b := by
  obtain ⟨px, s⟩ := wf_shows d hb
  have hw := s.size.width_le
  obtain ⟨b', e, s'⟩ := C22_interlace s 0 (by omega) (by omega)
  rw [e]
  congr 1
  refine (s'.congr (px' := px) ?_).eq s
  intro x y hx hy
  have h1 : nearest b.width ((x : Int) - (0 : Nat)) = x := by unfold nearest; omega
  have h2 : nearest b.width ((x : Int) + (0 : Nat)) = x := by unfold nearest; omega
  rw [h1, h2]; simp

/-- The size restriction is needed: with two rows and a larger offset the addition overflows. -/
theorem C22_interlace_overflow {b : PixelBuffer C} {w h px} (s : Shows b w h px) (off : Nat)
    (hoff : off < 2147483648) (hbig : 2147483648 < w + off) (h2 : 2 ≤ h) :
    ∃ e, interlace b off = .error e := by
  have hw := s.size.width_le
  have hh := s.size.height_le
  have hm := s.size.mul_le
  have hw0 : 0 < w := by rcases s.size with h | h <;> omega
  unfold interlace
  rw [s.width, s.height]
  simp only [new_from_func, new_from_funcM, liftM, monadLift, validate_ok s.size,
      ok_bind, u32_ok (show w * h < 4294967296 by omega)]
  have hlt := idx_lt (show w - 1 < w by omega) (show 1 < h by omega)
  obtain ⟨e, he⟩ := mapM_error (List.range (w * h)) (fun i => do
    if i / w % 2 == 0 then
      b.get_pixel_clamped (← i32 (asI32 (i % w) - asI32 off)) (asI32 (i / w))
    else
      b.get_pixel_clamped (← i32 (asI32 (i % w) + asI32 off)) (asI32 (i / w)))
    (w - 1 + 1 * w) (by simpa using hlt) (by
      intro c hc
      simp only [idx_mod (show w - 1 < w by omega), idx_div (show w - 1 < w by omega)] at hc
      rw [asI32_of_lt hoff, asI32_of_lt (show w - 1 < 2147483648 by omega)] at hc
      have : i32 ((w - 1 : Nat) + (off : Int)) = .error .overflow := by
        unfold i32; rw [if_neg (by omega)]
      rw [this] at hc
      simp at hc)
  exact ⟨e, by rw [he]; rfl⟩

example : interlace (PixelBuffer.mk 3 2 [1, 2, 3, 4, 5, 6]) 1 = .ok ⟨3, 2, [1, 1, 2, 5, 6, 6]⟩ := by
  rfl

/-! ## C38 Compose -/

/-- The pixel of an image at a position, or a default outside of it. -/
def Spec.pixelOr (d : C) (b : PixelBuffer C) (x y : Nat) : C :=
  match b.get_pixel x y with
  | .ok c => c
  | .error _ => d

theorem composed_pixels (d : C) (buffers : List (PixelBuffer C))
    (hb : ∀ b ∈ buffers, WellFormed b) (x y : Nat) (hx : x < 2147483648) (hy : y < 2147483648) :
    (buffers.mapM (m := R) fun b => do
      match ← b.get_pixel_optional (asI32 x) (asI32 y) with
      | some v => pure v
      | none => pure d) = .ok (buffers.map (fun b => pixelOr d b x y)) := by
  apply mapM_ok
  intro b hbm
  obtain ⟨px, s⟩ := wf_shows d (hb b hbm)
  rw [asI32_of_lt hx, asI32_of_lt hy, C05_get_pixel_optional s, ok_bind]
  unfold pixelOr
  rw [C03_get_pixel s]
  by_cases h : x < b.width ∧ y < b.height
  · rw [if_pos h, if_pos (by omega)]; simp
  · rw [if_neg h, if_neg (by omega)]; simp

/-- **C38** Composing at least one image: the size is the maximum of the sizes (and must be valid);
each pixel is the function's value on the list of the images' pixels there, `d` standing for
images that do not reach so far; the first error in row-major order is returned. -/
theorem C38_try_compose {E : Type} (d : C) (buffers : List (PixelBuffer C))
    (hb : ∀ b ∈ buffers, WellFormed b) (W H : Nat)
    (hW : (∃ b ∈ buffers, b.width = W) ∧ ∀ b ∈ buffers, b.width ≤ W)
    (hH : (∃ b ∈ buffers, b.height = H) ∧ ∀ b ∈ buffers, b.height ≤ H)
    (f : Nat → Nat → List C → Except E C) :
    (ValidSize W H →
      (∀ g : Nat → Nat → C,
        (∀ x y, x < W → y < H → f x y (buffers.map (fun b => pixelOr d b x y)) = .ok (g x y)) →
        ∃ b', try_compose_slice (m := R) buffers d (fun x y l => .ok (f x y l)) = .ok (.ok b') ∧
          Shows b' W H g) ∧
      (∀ x y e, x < W → y < H → f x y (buffers.map (fun b => pixelOr d b x y)) = .error e →
        (∀ x' y', x' < W → y' < H → Before x' y' x y →
          ∃ c, f x' y' (buffers.map (fun b => pixelOr d b x' y')) = .ok c) →
        try_compose_slice (m := R) buffers d (fun x y l => .ok (f x y l)) = .ok (.error e))) ∧
    (¬ ValidSize W H →
      try_compose_slice (m := R) buffers d (fun x y l => .ok (f x y l)) = .error .invalidSize) := by
  have hne : buffers ≠ [] := by rintro rfl; obtain ⟨⟨b, h, _⟩, _⟩ := hW; cases h
  have hmw : maxUnwrap (buffers.map (·.width)) = .ok W := by
    apply maxUnwrap_spec
    · obtain ⟨⟨b, h, e⟩, _⟩ := hW; exact List.mem_map.2 ⟨b, h, e⟩
    · intro n hn
      obtain ⟨b, h, rfl⟩ := List.mem_map.1 hn
      exact hW.2 b h
  have hmh : maxUnwrap (buffers.map (·.height)) = .ok H := by
    apply maxUnwrap_spec
    · obtain ⟨⟨b, h, e⟩, _⟩ := hH; exact List.mem_map.2 ⟨b, h, e⟩
    · intro n hn
      obtain ⟨b, h, rfl⟩ := List.mem_map.1 hn
      exact hH.2 b h
  have unf : try_compose_slice (m := R) buffers d (fun x y l => .ok (f x y l)) =
      try_new_from_func (m := R) W H (fun x y => do
        let pixels ← buffers.mapM (m := R) fun b => do
          match ← b.get_pixel_optional (asI32 x) (asI32 y) with
          | some v => pure v
          | none => pure d
        .ok (f x y pixels)) := by
    unfold try_compose_slice
    simp only [liftM, monadLift]
    rw [assert_ok (by simpa using hne), ok_bind, hmw, ok_bind, hmh, ok_bind]
    rfl
  by_cases hv : ValidSize W H
  · have hw := hv.width_le
    have hh := hv.height_le
    have hm := hv.mul_le
    have key : try_compose_slice (m := R) buffers d (fun x y l => .ok (f x y l)) =
        try_new_from_func (m := R) W H (fun x y =>
          .ok (f x y (buffers.map (fun b => pixelOr d b x y)))) := by
      rw [unf]
      simp only [try_new_from_func, liftM, monadLift, validate_ok hv, ok_bind,
        u32_ok (show W * H < 4294967296 by omega)]
      congr 1
      apply collectResult_congr
      intro i hi
      have hi : i < W * H := by simpa using hi
      have h1 := mod_lt hi
      have h2 := div_lt hi
      rw [composed_pixels d buffers hb _ _ (by omega) (by omega), ok_bind]
    refine ⟨fun _ => ?_, fun h => absurd hv h⟩
    rw [key]
    exact (C08_try_new_from_func W H
      (fun x y => f x y (buffers.map (fun b => pixelOr d b x y)))).1 hv
  · refine ⟨fun h => absurd h hv, fun _ => ?_⟩
    rw [unf]
    simp [try_new_from_func, liftM, monadLift, validate_err hv]

/-- Composing no image panics. -/
theorem C38_compose_none {E : Type} (d : C) (f : Nat → Nat → List C → R (Except E C)) :
    try_compose_slice (m := R) [] d f = .error .assertion := rfl

/-- The infallible variant. -/
theorem C38_compose (d : C) (buffers : List (PixelBuffer C))
    (hb : ∀ b ∈ buffers, WellFormed b) (W H : Nat)
    (hW : (∃ b ∈ buffers, b.width = W) ∧ ∀ b ∈ buffers, b.width ≤ W)
    (hH : (∃ b ∈ buffers, b.height = H) ∧ ∀ b ∈ buffers, b.height ≤ H)
    (f : Nat → Nat → List C → C) :
    (ValidSize W H → ∃ b', compose_slice (m := R) buffers d (fun x y l => .ok (f x y l)) = .ok b' ∧
      Shows b' W H (fun x y => f x y (buffers.map (fun b => pixelOr d b x y)))) ∧
    (¬ ValidSize W H →
      compose_slice (m := R) buffers d (fun x y l => .ok (f x y l)) = .error .invalidSize) := by
  have h := C38_try_compose (E := Unit) d buffers hb W H hW hH (fun x y l => .ok (f x y l))
  have e : (fun x y colors => do return .ok (← (Except.ok (f x y colors) : R C)) :
      Nat → Nat → List C → R (Except Unit C)) = fun x y l => .ok (.ok (f x y l)) := rfl
  unfold compose_slice
  rw [e]
  constructor
  · intro hv
    obtain ⟨b', h1, h2⟩ := (h.1 hv).1 _ (fun x y _ _ => rfl)
    exact ⟨b', by rw [h1]; rfl, h2⟩
  · intro hv
    rw [h.2 hv]; rfl

example : compose_slice (m := R) [PixelBuffer.mk 2 1 [1, 2], PixelBuffer.mk 1 2 [10, 20]] 0
    (fun _ _ l => .ok l.sum) = .ok ⟨2, 2, [11, 2, 20, 0]⟩ := rfl

/-- **C38** The variants for a fixed number of images do the same as those for a list of images. -/
theorem C38_try_compose_array {m : Type → Type} [Monad m] [LawfulMonad m] [MonadLiftT R m]
    [LawfulMonadLiftT R m] {E : Type} {N : Nat} (d : C) (buffers : Vector (PixelBuffer C) N)
    (f : Nat → Nat → Vector C N → m (Except E C)) (g : Nat → Nat → List C → m (Except E C))
    (hfg : ∀ x y v, f x y v = g x y v.toList) :
    try_compose buffers d f = try_compose_slice buffers.toList d g := by
  unfold try_compose try_compose_slice
  have hN : (decide (N > 0)) = !buffers.toList.isEmpty := by
    rcases buffers with ⟨⟨l⟩, rfl⟩
    cases l <;> simp
  rw [hN]
  congr 1; funext _
  congr 1; funext w
  congr 1; funext h
  congr 1; funext x y
  generalize hF : (fun b : PixelBuffer C => (do
    match ← b.get_pixel_optional (asI32 x) (asI32 y) with
    | some v => pure v
    | none => pure d : R C)) = F
  have hm : buffers.toList.mapM F = Vector.toList <$> buffers.mapM F := by
    rw [Vector.toList, ← Array.toList_mapM, ← Vector.toArray_mapM, Functor.map_map]
    rfl
  rw [hm, liftM_map, bind_map_left]
  exact congrArg (bind _) (funext fun v => hfg x y v)

theorem C38_compose_array {m : Type → Type} [Monad m] [LawfulMonad m] [MonadLiftT R m]
    [LawfulMonadLiftT R m] {N : Nat} (d : C) (buffers : Vector (PixelBuffer C) N)
    (f : Nat → Nat → Vector C N → m C) (g : Nat → Nat → List C → m C)
    (hfg : ∀ x y v, f x y v = g x y v.toList) :
    compose buffers d f = compose_slice buffers.toList d g := by
  unfold compose compose_slice
  rw [C38_try_compose_array d buffers _ (fun x y l => do return .ok (← g x y l)) fun x y v => by rw [hfg]]

/-- A function of two colours gets them in the order of the images. -/
example : compose (m := R) #v[PixelBuffer.mk 2 1 [1, 2], PixelBuffer.mk 1 2 [10, 20]] 0
    (fun _ _ v => .ok (v[0] + 2 * v[1])) = .ok ⟨2, 2, [21, 2, 40, 0]⟩ := by decide +kernel

end D10
