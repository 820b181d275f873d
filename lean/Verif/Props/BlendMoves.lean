import Verif.Props.Blend
import Verif.Props.Geometry
import Verif.Props.Convolution

/-!
# C142: moving pictures before or after they are joined
-/

namespace D10
open Spec PixelBuffer
open Scalar (lit)

section
variable {C : Type}

/-- A move of `w x h` pictures: the pixels of the result are pixels of the picture, at places that depend only on its size. -/
def PlacedAt (move : PixelBuffer C → R (PixelBuffer C)) (w h : Nat) : Prop :=
  ∃ (w' h' : Nat) (src : Nat → Nat → Nat × Nat), (∀ x y, x < w' → y < h' → (src x y).1 < w ∧ (src x y).2 < h) ∧
    ∀ b px, Shows b w h px → ∃ b', move b = .ok b' ∧ Shows b' w' h' fun x y => px (src x y).1 (src x y).2

theorem placed_moves (d : C) (w h : Nat) : ∀ move ∈ [flip_horizontal d, flip_vertical d, rotate90 d, rotate180 d, rotate270 d],
    PlacedAt move w h := by
  intro move hm
  simp only [List.mem_cons, List.not_mem_nil, or_false] at hm
  rcases hm with rfl | rfl | rfl | rfl | rfl
  · exact ⟨w, h, fun x y => (w - 1 - x, y), fun x y hx hy => ⟨by simp only; omega, hy⟩, fun b px s => C13_flip_horizontal d s⟩
  · exact ⟨w, h, fun x y => (x, h - 1 - y), fun x y hx hy => ⟨hx, by simp only; omega⟩, fun b px s => C13_flip_vertical d s⟩
  · exact ⟨h, w, fun x y => (y, h - 1 - x), fun x y hx hy => ⟨hy, by simp only; omega⟩, fun b px s => C14_rotate90 d s⟩
  · exact ⟨w, h, fun x y => (w - 1 - x, h - 1 - y), fun x y hx hy => ⟨by simp only; omega, by simp only; omega⟩,
      fun b px s => C14_rotate180 d s⟩
  · exact ⟨h, w, fun x y => (w - 1 - y, x), fun x y hx hy => ⟨by simp only; omega, hx⟩, fun b px s => C14_rotate270 d s⟩

theorem placed_crop (d : C) (w h ox oy rw rh : Nat) : PlacedAt (fun b => crop d b ox oy rw rh) w h := by
  by_cases k : min w (ox + rw) ≤ ox ∨ min h (oy + rh) ≤ oy
  · refine ⟨0, 0, fun x y => (x, y), fun x y hx => absurd hx (Nat.not_lt_zero _), fun b px s => ?_⟩
    obtain ⟨b', e, s'⟩ := C16_crop d s ox oy rw rh
    rw [if_pos k] at s'
    exact ⟨b', e, s'⟩
  · refine ⟨min w (ox + rw) - ox, min h (oy + rh) - oy, fun x y => (ox + x, oy + y),
      fun x y hx hy => ⟨by simp only; omega, by simp only; omega⟩, fun b px s => ?_⟩
    obtain ⟨b', e, s'⟩ := C16_crop d s ox oy rw rh
    rw [if_neg k] at s'
    exact ⟨b', e, s'⟩

theorem placed_interlace (w h off : Nat) (h1 : off < 2147483648) (h2 : w + off ≤ 2147483648) :
    PlacedAt (C := C) (fun b => interlace b off) w h := by
  refine ⟨w, h, fun x y => (if y % 2 = 0 then nearest w (x - off) else nearest w (x + off), y), fun x y hx hy => ⟨?_, hy⟩, fun b px s => ?_⟩
  · simp only [nearest]
    split <;> omega
  · obtain ⟨b', e, s'⟩ := C22_interlace s off h1 h2
    refine ⟨b', e, s'.congr fun x y _ _ => ?_⟩
    by_cases k : y % 2 = 0
    · simp only [if_pos k]
    · simp only [if_neg k]

/-- The mirror image on the diagonal: a quarter turn and a flip. -/
def onDiagonal (d : C) (b : PixelBuffer C) : R (PixelBuffer C) := rotate90 d b >>= flip_horizontal d

theorem shows_diagonal (d : C) {b : PixelBuffer C} {w h px} (s : Shows b w h px) :
    ∃ b', onDiagonal d b = .ok b' ∧ Shows b' h w fun x y => px y x := by
  obtain ⟨b1, e1, s1⟩ := C14_rotate90 d s
  obtain ⟨b2, e2, s2⟩ := C13_flip_horizontal d s1
  refine ⟨b2, by unfold onDiagonal; rw [e1, ok_bind, e2], s2.congr fun x y hx hy => ?_⟩
  congr 1; omega

end

section
variable {F : Type} [Scalar F]

theorem blend_pair {a b : PixelBuffer (Col F)} {w h p p'} (sa : Shows a w h p) (sb : Shows b w h p') (op : BlendOp) (i : F) :
    ∃ r, blend_image a b op i = .ok r ∧ Shows r w h fun x y => modeFunction op (p x y) (p' x y) i := by
  obtain ⟨y, -⟩ := C36_blend_image sa sb op i
  rw [max_self, max_self] at y
  obtain ⟨r, e, s⟩ := y sa.size
  refine ⟨r, e, s.congr fun x y hx hy => ?_⟩
  rw [if_pos ⟨hx, hy⟩, if_pos ⟨hx, hy⟩]

theorem blend_placed {a b : PixelBuffer (Col F)} (ha : WellFormed a) (hb : WellFormed b) (ew : a.width = b.width)
    (eh : a.height = b.height) (op : BlendOp) (i : F) {move : PixelBuffer (Col F) → R (PixelBuffer (Col F))}
    (hm : PlacedAt move a.width a.height) :
    (do let a' ← move a; let b' ← move b; blend_image a' b' op i) = (blend_image a b op i >>= move) := by
  obtain ⟨p, sa⟩ := wf_shows (Rgb.NONE : Col F) ha
  obtain ⟨q, sb⟩ := wf_shows (Rgb.NONE : Col F) hb
  rw [← ew, ← eh] at sb
  obtain ⟨w', h', src, -, mv⟩ := hm
  obtain ⟨a1, e1, s1⟩ := mv a p sa
  obtain ⟨b1, e2, s2⟩ := mv b q sb
  obtain ⟨r, e3, s3⟩ := blend_pair s1 s2 op i
  obtain ⟨r', e4, s4⟩ := blend_pair sa sb op i
  obtain ⟨r2, e5, s5⟩ := mv r' _ s4
  rw [e1, ok_bind, e2, ok_bind, e3, e4, ok_bind, e5]
  exact congrArg _ (s3.eq s5)

/-- **Flips and quarter turns** of two pictures of the same size can be made before or after blending them, in every mode and at every
intensity, whatever the numbers. -/
theorem C142_moves {a b : PixelBuffer (Col F)} (ha : WellFormed a) (hb : WellFormed b) (ew : a.width = b.width)
    (eh : a.height = b.height) (op : BlendOp) (i : F) :
    ∀ move ∈ [flip_horizontal Rgb.NONE, flip_vertical Rgb.NONE, rotate90 Rgb.NONE, rotate180 Rgb.NONE, rotate270 Rgb.NONE],
      (do let a' ← move a; let b' ← move b; blend_image a' b' op i) = (blend_image a b op i >>= move) :=
  fun move hm => blend_placed ha hb ew eh op i (placed_moves _ _ _ move hm)

/-- **Cropping and interlacing** too. -/
theorem C142_crop {a b : PixelBuffer (Col F)} (ha : WellFormed a) (hb : WellFormed b) (ew : a.width = b.width)
    (eh : a.height = b.height) (op : BlendOp) (i : F) :
    (∀ ox oy rw rh, (do let a' ← crop Rgb.NONE a ox oy rw rh; let b' ← crop Rgb.NONE b ox oy rw rh; blend_image a' b' op i) =
      (blend_image a b op i >>= fun r => crop Rgb.NONE r ox oy rw rh)) ∧
    ∀ off, off < 2147483648 → a.width + off ≤ 2147483648 →
      (do let a' ← interlace a off; let b' ← interlace b off; blend_image a' b' op i) =
        (blend_image a b op i >>= fun r => interlace r off) :=
  ⟨fun ox oy rw rh => blend_placed ha hb ew eh op i (placed_crop _ _ _ ox oy rw rh),
    fun off h1 h2 => blend_placed ha hb ew eh op i (placed_interlace _ _ off h1 h2)⟩

/-- **Different sizes.** Pictures are joined at their top left corners, so only the mirror image on the diagonal (a quarter turn followed
by a flip) can be made before or after, for all sizes. -/
theorem C142_diagonal {a b : PixelBuffer (Col F)} (ha : WellFormed a) (hb : WellFormed b) (op : BlendOp) (i : F) :
    (do let a' ← rotate90 Rgb.NONE a >>= flip_horizontal Rgb.NONE
        let b' ← rotate90 Rgb.NONE b >>= flip_horizontal Rgb.NONE
        blend_image a' b' op i) =
      (do let r ← blend_image a b op i
          rotate90 Rgb.NONE r >>= flip_horizontal Rgb.NONE) := by
  show (do let a' ← onDiagonal Rgb.NONE a; let b' ← onDiagonal Rgb.NONE b; blend_image a' b' op i) =
    (blend_image a b op i >>= onDiagonal Rgb.NONE)
  obtain ⟨p, sa⟩ := wf_shows (Rgb.NONE : Col F) ha
  obtain ⟨q, sb⟩ := wf_shows (Rgb.NONE : Col F) hb
  obtain ⟨a1, e1, s1⟩ := shows_diagonal Rgb.NONE sa
  obtain ⟨b1, e2, s2⟩ := shows_diagonal Rgb.NONE sb
  rw [e1, ok_bind, e2, ok_bind]
  obtain ⟨y1, n1⟩ := C36_blend_image s1 s2 op i
  obtain ⟨y2, n2⟩ := C36_blend_image sa sb op i
  by_cases hv : ValidSize (max a.width b.width) (max a.height b.height)
  · obtain ⟨r, e3, s3⟩ := y1 hv.swap
    obtain ⟨r', e4, s4⟩ := y2 hv
    obtain ⟨r2, e5, s5⟩ := shows_diagonal Rgb.NONE s4
    rw [e3, e4, ok_bind, e5]
    refine congrArg _ (s3.eq (s5.congr fun x y _ _ => ?_))
    simp only [and_comm]
  · rw [n1 fun k => hv k.swap, n2 hv]
    rfl

end

section
variable {C : Type}

theorem shows_pixelOr (d : C) {b : PixelBuffer C} (hb : WellFormed b) : Shows b b.width b.height (pixelOr d b) := by
  obtain ⟨p, s⟩ := wf_shows d hb
  exact s.congr fun x y hx hy => (pixelOr_shows s d hx hy).symm

/-- All pictures are moved. -/
theorem moved_all (d : C) {w h w' h' : Nat} {src : Nat → Nat → Nat × Nat} {move : PixelBuffer C → R (PixelBuffer C)}
    (mv : ∀ b px, Shows b w h px → ∃ b', move b = .ok b' ∧ Shows b' w' h' fun x y => px (src x y).1 (src x y).2) :
    ∀ bs : List (PixelBuffer C), (∀ b ∈ bs, WellFormed b ∧ b.width = w ∧ b.height = h) →
      ∃ bs', bs.mapM move = .ok bs' ∧
        List.Forall₂ (fun b b' => Shows b' w' h' fun x y => pixelOr d b (src x y).1 (src x y).2) bs bs'
  | [], _ => ⟨[], rfl, .nil⟩
  | b :: bs, hb => by
    obtain ⟨hw, e1, e2⟩ := hb b (by simp)
    have s := shows_pixelOr d hw
    rw [e1, e2] at s
    obtain ⟨b', e, s'⟩ := mv b _ s
    obtain ⟨bs', e', f⟩ := moved_all d mv bs fun b k => hb b (by simp [k])
    refine ⟨b' :: bs', ?_, .cons s' f⟩
    rw [List.mapM_cons, e, ok_bind, e', ok_bind]
    rfl

theorem compose_placed (d : C) {w h : Nat} {bs : List (PixelBuffer C)} (h0 : bs ≠ [])
    (hb : ∀ b ∈ bs, WellFormed b ∧ b.width = w ∧ b.height = h) (f : List C → C) {move : PixelBuffer C → R (PixelBuffer C)}
    (hm : PlacedAt move w h) :
    (bs.mapM move >>= fun l => compose_slice (m := R) l d fun _ _ cs => .ok (f cs)) =
      (compose_slice (m := R) bs d (fun _ _ cs => .ok (f cs)) >>= move) := by
  obtain ⟨w', h', src, hin, mv⟩ := hm
  obtain ⟨bs', e, fa⟩ := moved_all d mv bs hb
  rw [e, ok_bind]
  obtain ⟨b0, rest, rfl⟩ := List.exists_cons_of_ne_nil h0
  have v : ValidSize w h := by
    obtain ⟨k, e1, e2⟩ := hb b0 (by simp)
    have := (shows_pixelOr d k).size
    rwa [e1, e2] at this
  have all : ∀ b' ∈ bs', ∃ px, Shows b' w' h' px := by
    clear e hb h0
    generalize b0 :: rest = l at fa
    induction fa with
    | nil => exact fun _ k => absurd k List.not_mem_nil
    | cons s _ ih => exact fun b' k => (List.mem_cons.1 k).elim (fun e => e ▸ ⟨_, s⟩) (ih b')
  obtain ⟨b0', hb0⟩ : ∃ b', b' ∈ bs' := by
    cases fa with
    | cons _ _ => exact ⟨_, List.mem_cons_self⟩
  obtain ⟨_, sz⟩ := all b0' hb0
  obtain ⟨c1, -⟩ := C38_compose d bs' (fun b k => (all b k).elim fun _ s => s.wellFormed) w' h'
    ⟨⟨b0', hb0, sz.width⟩, fun b k => (all b k).elim fun _ s => s.width.le⟩
    ⟨⟨b0', hb0, sz.height⟩, fun b k => (all b k).elim fun _ s => s.height.le⟩ fun _ _ cs => f cs
  obtain ⟨c2, -⟩ := C38_compose d (b0 :: rest) (fun b k => (hb b k).1) w h
    ⟨⟨b0, by simp, (hb b0 (by simp)).2.1⟩, fun b k => (hb b k).2.1.le⟩
    ⟨⟨b0, by simp, (hb b0 (by simp)).2.2⟩, fun b k => (hb b k).2.2.le⟩ fun _ _ cs => f cs
  obtain ⟨r, e1, s1⟩ := c1 sz.size
  obtain ⟨r', e2, s2⟩ := c2 v
  obtain ⟨r2, e3, s3⟩ := mv r' _ s2
  rw [e1, e2, ok_bind, e3]
  refine congrArg _ (s1.eq (s3.congr fun x y hx hy => ?_))
  refine congrArg f ?_
  clear e e2 s2 s3 c2 c1 e1 s1 all hb0 h0 hb e3
  generalize b0 :: rest = l at fa
  induction fa with
  | nil => rfl
  | cons k _ ih => rw [List.map_cons, List.map_cons, ih, pixelOr_shows k d hx hy]

/-- **Composing** any number of pictures of the same size with a function of the colours alone: they can be flipped, turned and
cropped before or after. -/
theorem C142_compose (d : C) {w h : Nat} {bs : List (PixelBuffer C)} (h0 : bs ≠ [])
    (hb : ∀ b ∈ bs, WellFormed b ∧ b.width = w ∧ b.height = h) (f : List C → C) :
    (∀ move ∈ [flip_horizontal d, flip_vertical d, rotate90 d, rotate180 d, rotate270 d],
      (bs.mapM move >>= fun l => compose_slice (m := R) l d fun _ _ cs => .ok (f cs)) =
        (compose_slice (m := R) bs d (fun _ _ cs => .ok (f cs)) >>= move)) ∧
    ∀ ox oy rw rh,
      (bs.mapM (fun b => crop d b ox oy rw rh) >>= fun l => compose_slice (m := R) l d fun _ _ cs => .ok (f cs)) =
        (compose_slice (m := R) bs d (fun _ _ cs => .ok (f cs)) >>= fun r => crop d r ox oy rw rh) :=
  ⟨fun move hm => compose_placed d h0 hb f (placed_moves d w h move hm),
    fun ox oy rw rh => compose_placed d h0 hb f (placed_crop d w h ox oy rw rh)⟩

end

/-- **Flips of different sizes** do not: a black pixel on two white ones, keeping the darker channels. -/
theorem C142_anchored [Junk] {a b : PixelBuffer (Col ℝ)} (sa : Shows a 1 1 fun _ _ => ⟨0, 0, 0, 1⟩) (sb : Shows b 2 1 fun _ _ => ⟨1, 1, 1, 1⟩) :
    ∃ r r', (do let a' ← flip_horizontal Rgb.NONE a; let b' ← flip_horizontal Rgb.NONE b; blend_image a' b' .Darken 1) = .ok r ∧
      (blend_image a b .Darken 1 >>= flip_horizontal Rgb.NONE) = .ok r' ∧
      r.data = [⟨0, 0, 0, 1⟩, ⟨1, 1, 1, 1⟩] ∧ r'.data = [⟨1, 1, 1, 1⟩, ⟨0, 0, 0, 1⟩] := by
  have v : ValidSize 2 1 := .inr (by norm_num)
  have u : Spec.Unit (⟨1, 1, 1, 1⟩ : Col ℝ) := by constructor <;> norm_num
  have z : Spec.Unit (⟨0, 0, 0, 1⟩ : Col ℝ) := by constructor <;> norm_num
  have k := (C37_intensity_one _ _ z u rfl).2.2.1
  norm_num at k
  obtain ⟨a1, e1, s1⟩ := C13_flip_horizontal Rgb.NONE sa
  obtain ⟨b1, e2, s2⟩ := C13_flip_horizontal Rgb.NONE sb
  obtain ⟨r, e3, s3⟩ := (C36_blend_image s1 s2 .Darken 1).1 (by norm_num [v])
  obtain ⟨r', e4, s4⟩ := (C36_blend_image sa sb .Darken 1).1 (by norm_num [v])
  norm_num [k] at s3 s4
  obtain ⟨r2, e5, s5⟩ := C13_flip_horizontal Rgb.NONE s4
  refine ⟨r, r2, by rw [e1, ok_bind, e2, ok_bind, e3], by rw [e4, ok_bind, e5], ?_, ?_⟩
  · rw [s3.pixels]; simp [rows, List.range_succ]
  · rw [s5.pixels]; simp [rows, List.range_succ]

/-! ## The hypotheses can be met -/

/-- Two pictures of the same size. -/
example : (∀ b ∈ [PixelBuffer.mk 2 1 [1, 2], PixelBuffer.mk 2 1 [10, 20]], WellFormed b ∧ b.width = 2 ∧ b.height = 1) ∧
    ([PixelBuffer.mk 2 1 [1, 2], PixelBuffer.mk 2 1 [10, 20]].mapM (flip_horizontal 0) >>= fun l =>
      compose_slice (m := R) l 0 fun _ _ cs => .ok cs.sum) = .ok ⟨2, 1, [22, 11]⟩ := by
  refine ⟨fun b k => ?_, by decide +kernel⟩
  simp only [List.mem_cons, List.not_mem_nil, or_false] at k
  rcases k with rfl | rfl <;> exact ⟨⟨.inr (by norm_num), rfl⟩, rfl, rfl⟩

end D10
