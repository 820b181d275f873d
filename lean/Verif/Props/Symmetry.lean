import Verif.SpecMoves
import Verif.Lemmas.Moves
import Verif.Props.Convolution
import Verif.Props.Smooth
import Verif.Props.Drawing
import Verif.Props.Histogram
import Verif.Props.Tone
import Verif.Props.Sample

/-!
# Operations commute with flips and quarter turns (C87)
-/

namespace D10
open Spec PixelBuffer
open Scalar (isNan lit)

theorem Equivariant.noDirection {F : Type} [Scalar F] {P : Recipe (Col F) (Col F)} (e : Equivariant P)
    {op : PixelBuffer (Col F) → R (PixelBuffer (Col F))}
    (hop : ∀ b w h px, Shows b w h px → ∃ b', op b = .ok b' ∧ Shows b' w h (P w h px))
    {b : PixelBuffer (Col F)} (hb : WellFormed b) : NoDirection op b := by
  obtain ⟨h1, h2, h3, h4, h5⟩ := e.commutes hop Rgb.NONE Rgb.NONE hb
  intro move hm
  simp only [List.mem_cons, List.not_mem_nil, or_false] at hm
  rcases hm with rfl | rfl | rfl | rfl | rfl
  exacts [h1, h2, h3, h4, h5]

section
variable {F : Type} [Scalar F]

/-! ## Pixel by pixel -/

/-- C87: whatever is done to every pixel on its own can be done before or after a flip or turn. -/
theorem C87_pointwise (f : Col F → Col F) {b : PixelBuffer (Col F)} (hb : WellFormed b) :
    NoDirection (fun b => .ok (b.map_colors f)) b :=
  (Equivariant.pixel.map f).noDirection (fun _ _ _ _ s => ⟨_, rfl, C07_map_colors s f⟩) hb

/-- C87: applying a palette. -/
theorem C87_palette (space : Space) (palette : PixelBuffer (Col F)) {b : PixelBuffer (Col F)}
    (hb : WellFormed b) : NoDirection (fun b => .ok (apply_palette b space palette)) b :=
  C87_pointwise _ hb

/-- C87: pixel-by-pixel operations also commute with cropping, interlacing and resizing or rotating by
the nearest pixel (with the background changed too), in every arithmetic. -/
theorem C87_pointwise_copying [Coords F] (f : Col F → Col F) {b : PixelBuffer (Col F)} (hb : WellFormed b) :
    (∀ ox oy rw rh, crop Rgb.NONE (b.map_colors f) ox oy rw rh =
      (crop Rgb.NONE b ox oy rw rh).map fun c => c.map_colors f) ∧
    (∀ off, off < 2147483648 → b.width + off ≤ 2147483648 →
      interlace (b.map_colors f) off = (interlace b off).map fun c => c.map_colors f) ∧
    (∀ nw nh, ValidSize nw nh → 0 < b.width →
      resize (b.map_colors f) nw nh .Nearest = (resize b nw nh .Nearest).map fun c => c.map_colors f) ∧
    (∀ angle bg, rotate (b.map_colors f) angle (f bg) .Nearest =
      (rotate b angle bg .Nearest).map fun c => c.map_colors f) := by
  obtain ⟨px, s⟩ := wf_shows (Rgb.NONE : Col F) hb
  have sf := C07_map_colors s f
  refine ⟨fun ox oy rw rh => ?_, fun off h1 h2 => ?_, fun nw nh hv hw => ?_, fun angle bg => ?_⟩
  · obtain ⟨b1, e1, s1⟩ := C16_crop (Rgb.NONE : Col F) s ox oy rw rh
    obtain ⟨b2, e2, s2⟩ := C16_crop (Rgb.NONE : Col F) sf ox oy rw rh
    rw [e1, e2]
    refine congrArg Except.ok ?_
    split at s1
    · rename_i h; rw [if_pos h] at s2; exact s2.eq (C07_map_colors s1 f)
    · rename_i h; rw [if_neg h] at s2; exact s2.eq (C07_map_colors s1 f)
  · obtain ⟨b1, e1, s1⟩ := C22_interlace s off h1 h2
    obtain ⟨b2, e2, s2⟩ := C22_interlace sf off h1 h2
    rw [e1, e2]
    refine congrArg Except.ok (s2.eq ((C07_map_colors s1 f).congr fun x y _ _ => ?_))
    exact apply_ite f _ _ _
  · by_cases hne : nw = b.width ∧ nh = b.height
    · obtain ⟨rfl, rfl⟩ := hne
      rw [C18_resize_same b]
      exact C18_resize_same (b.map_colors f) _
    · obtain ⟨b1, e1, s1⟩ := C18_resize s hw nw nh hv hne .Nearest (by simp)
      obtain ⟨b2, e2, s2⟩ := C18_resize sf hw nw nh hv hne .Nearest (by simp)
      rw [e1, e2]
      exact congrArg Except.ok (s2.eq (C07_map_colors s1 f))
  · cases ha : (Scalar.abs (angle -. lit 360) <. lit (1 / 8388608)) with
    | true => rw [C21_rotate_360 b angle bg _ ha, C21_rotate_360 _ angle _ _ ha]; rfl
    | false =>
      obtain ⟨b1, e1, s1⟩ := C21_rotate s angle bg .Nearest ha
      obtain ⟨b2, e2, s2⟩ := C21_rotate sf angle (f bg) .Nearest ha
      rw [e1, e2]
      refine congrArg Except.ok (s2.eq ((C07_map_colors s1 f).congr fun x y _ _ => ?_))
      unfold rotated
      simp only []
      split <;> rfl

/-! ## Statistics of the whole image -/

theorem shares_perm {l l' : List F} (h : l.Perm l') : shares l = shares l' := by
  funext k
  unfold shares
  rw [h.countP_eq, h.length_eq]

theorem blackPoint_perm {l l' : List F} (h : l.Perm l') : IsBlackPoint l = IsBlackPoint l' := by
  funext t p
  unfold IsBlackPoint
  rw [shares_perm h]

theorem whitePoint_perm {l l' : List F} (h : l.Perm l') : IsWhitePoint l = IsWhitePoint l' := by
  funext t p
  unfold IsWhitePoint
  rw [shares_perm h]

theorem equalTable_perm {l l' : List F} (h : l.Perm l') : equalTable l = equalTable l' := by
  have e : share l = share l' := by
    funext k
    unfold share
    rw [h.length_eq]
    congr 2
    funext j
    rw [h.countP_eq]
  funext k
  unfold equalTable
  rw [e]

theorem blackPoint_unique {vs : List F} {t p q : F} (hp : IsBlackPoint vs t p)
    (hq : IsBlackPoint vs t q) : p = q := by
  rcases hp with ⟨k, k1, k2, k3, rfl⟩ | ⟨k3, rfl⟩ <;> rcases hq with ⟨j, j1, j2, j3, rfl⟩ | ⟨j3, rfl⟩
  · rcases Nat.lt_trichotomy k j with h | h | h
    · rw [j3 k h] at k2; cases k2
    · rw [h]
    · rw [k3 j h] at j2; cases j2
  · rw [j3 k k1] at k2; cases k2
  · rw [k3 j j1] at j2; cases j2
  · rfl

theorem whitePoint_unique {vs : List F} {t p q : F} (hp : IsWhitePoint vs t p)
    (hq : IsWhitePoint vs t q) : p = q := by
  rcases hp with ⟨k, k1, k2, k3, rfl⟩ | ⟨k3, rfl⟩ <;> rcases hq with ⟨j, j1, j2, j3, rfl⟩ | ⟨j3, rfl⟩
  · rcases Nat.lt_trichotomy k j with h | h | h
    · rw [k3 j h j1] at j2; cases j2
    · rw [h]
    · rw [j3 k h k1] at k2; cases k2
  · rw [j3 k k1] at k2; cases k2
  · rw [k3 j j1] at j2; cases j2
  · rfl

open Classical in
/-- The value with the property `q`, if there is one. -/
noncomputable def pick (q : F → Prop) : F := if h : ∃ p, q p then h.choose else lit 0

theorem pick_eq {q : F → Prop} {p : F} (hp : q p) (hu : ∀ a b, q a → q b → a = b) : pick q = p := by
  have h : ∃ p, q p := ⟨p, hp⟩
  unfold pick
  rw [dif_pos h]
  exact hu _ _ h.choose_spec hp

/-- C87: histogram equalisation, all modes, in every arithmetic. -/
theorem C87_equalize [LawfulCast F] (mode : EqualizeMode) {b : PixelBuffer (Col F)} (hb : WellFormed b) :
    NoDirection (fun b => equalize b mode) b := by
  have key : Equivariant (equalisedPixel (F := F) · · · mode) := by
    have e := Equivariant.summary (T := Col F) (fun l p =>
      let eq := fun (ch : Col F → F) (sp : Space) =>
        equalised (l.map fun p => ch (D10.convert .rgb sp p)) (ch (D10.convert .rgb sp p))
      let hsl := D10.convert .rgb .hsl p
      match mode with
      | .Rgb => Rgb.new_with_alpha (eq Col.c0 .rgb) (eq Col.c1 .rgb) (eq Col.c2 .rgb) p.alpha
      | .Srgb => to_rgb .srgb (Srgb.new_with_alpha (eq Col.c0 .srgb) (eq Col.c1 .srgb)
          (eq Col.c2 .srgb) (D10.convert .rgb .srgb p).alpha)
      | .Saturation => to_rgb .hsl ⟨hsl.c0, eq Col.c1 .hsl, hsl.c2, hsl.alpha⟩
      | .Lightness => to_rgb .hsl ⟨hsl.c0, hsl.c1, eq Col.c2 .hsl, hsl.alpha⟩
      | .SaturationLightness => to_rgb .hsl ⟨hsl.c0, eq Col.c1 .hsl, eq Col.c2 .hsl, hsl.alpha⟩)
      (by
        intro l l' h c
        have e : ∀ f : Col F → F, equalised (l.map f) = equalised (l'.map f) := by
          intro f; funext v; unfold equalised; rw [equalTable_perm (h.map f)]
        simp only [e])
    convert e using 5 with w h px x
    unfold equalisedPixel
    simp only [rows_map]
    cases mode <;> rfl
  exact key.noDirection (fun _ _ _ _ s => C44_equalize s mode) hb

/-- C87: contrast stretching, in every arithmetic. -/
theorem C87_stretch_contrast [LawfulCast F] (t : F) {b : PixelBuffer (Col F)} (hb : WellFormed b) :
    NoDirection (fun b => stretch_contrast b t) b := by
  have e := Equivariant.summary (T := Col F) (fun l c =>
    let bp := pick (IsBlackPoint (l.map gray) (t /. lit 1000))
    let wp := pick (IsWhitePoint (l.map gray) (t /. lit 1000))
    if (lit 0 <. bp) = true ∨ (wp <. lit 1) = true then Rgb.with_level c bp wp (lit 1) else c)
    (by
      intro l l' h c
      simp only [blackPoint_perm (h.map gray), whitePoint_perm (h.map gray)])
  refine e.noDirection (fun b w h px s => ?_) hb
  obtain ⟨bp, wp, b', h1, h2, h3, h4⟩ := C45_stretch_contrast s t
  refine ⟨b', h3, ?_⟩
  simp only [rows_map, pick_eq h1 (fun _ _ => blackPoint_unique), pick_eq h2 (fun _ _ => whitePoint_unique)]
  exact h4

/-- C87: level balance, all modes, in every arithmetic. -/
theorem C87_balance [LawfulCast F] (mode : BalanceMode) (t : F) {b : PixelBuffer (Col F)} (hb : WellFormed b) :
    NoDirection (fun b => balance b mode t) b := by
  have e := Equivariant.summary (T := Col F) (fun l c =>
    let vs := fun i => l.map fun p => channel (D10.convert .rgb (balanceSpace mode) p) i
    balancedPixel mode (fun i => pick (IsBlackPoint (vs i) (t /. lit 1000)))
      (fun i => pick (IsWhitePoint (vs i) (t /. lit 1000))) c)
    (by
      intro l l' h c
      have hb : ∀ i, IsBlackPoint (l.map fun p => channel (D10.convert .rgb (balanceSpace mode) p) i) =
        IsBlackPoint (l'.map fun p => channel (D10.convert .rgb (balanceSpace mode) p) i) :=
        fun i => blackPoint_perm (h.map _)
      have hw : ∀ i, IsWhitePoint (l.map fun p => channel (D10.convert .rgb (balanceSpace mode) p) i) =
        IsWhitePoint (l'.map fun p => channel (D10.convert .rgb (balanceSpace mode) p) i) :=
        fun i => whitePoint_perm (h.map _)
      simp only [hb, hw])
  refine e.noDirection (fun b w h px s => ?_) hb
  obtain ⟨bp, wp, b', h1, h3, h4⟩ := C69_balance s mode t
  refine ⟨b', h3, h4.congr fun x y hx hy => ?_⟩
  have p1 : ∀ i < 3, balanced mode i = true →
      pick (IsBlackPoint (rows w h fun x y => channel (D10.convert .rgb (balanceSpace mode) (px x y)) i)
        (t /. lit 1000)) = bp i ∧
      pick (IsWhitePoint (rows w h fun x y => channel (D10.convert .rgb (balanceSpace mode) (px x y)) i)
        (t /. lit 1000)) = wp i := fun i hi hm =>
    ⟨pick_eq (h1 i hi hm).1 (fun _ _ => blackPoint_unique), pick_eq (h1 i hi hm).2 (fun _ _ => whitePoint_unique)⟩
  simp only [rows_map]
  unfold balancedPixel
  have m : ∀ i < 3, ∀ v, (if balanced mode i then balancedChannel (bp i) (wp i) v else v) =
      (if balanced mode i then balancedChannel
        (pick (IsBlackPoint (rows w h fun x y => channel (D10.convert .rgb (balanceSpace mode) (px x y)) i)
        (t /. lit 1000)))
        (pick (IsWhitePoint (rows w h fun x y => channel (D10.convert .rgb (balanceSpace mode) (px x y)) i)
        (t /. lit 1000))) v else v) := by
    intro i hi v
    by_cases hm : balanced mode i = true
    · rw [if_pos hm, if_pos hm, (p1 i hi hm).1, (p1 i hi hm).2]
    · rw [if_neg hm, if_neg hm]
  simp only [m 0 (by omega), m 1 (by omega), m 2 (by omega)]

end

/-! ## Neighbourhoods, in exact arithmetic

In binary32 the sums are taken in another order after a flip, so the results can differ in the last
bits. -/

theorem conv_congr_px {F : Type} [Scalar F] {w h : Nat} {px px' : Nat → Nat → Col F}
    (hp : ∀ x y, x < w → y < h → px x y = px' x y) (W H : Nat) (wt : Nat → Nat → F) {x y : Nat}
    (hx : x < w) (hy : y < h) : conv w h px W H wt x y = conv w h px' W H wt x y := by
  unfold conv
  simp only [hp _ _ (nearest_lt (n := w) (by omega) _) (nearest_lt (n := h) (by omega) _)]

theorem conv_congr_wt {F : Type} [Scalar F] {w h : Nat} (px : Nat → Nat → Col F) {W H : Nat}
    {wt wt' : Nat → Nat → F} (hw : ∀ i j, i < W → j < H → wt i j = wt' i j) (x y : Nat) :
    conv w h px W H wt x y = conv w h px W H wt' x y := by
  unfold conv
  congr 1
  funext ch
  unfold total
  rw [rows_congr fun i j hi hj => by rw [hw i j hi hj]]

section
variable [Junk]

theorem conv_exact (w h : Nat) (px : Nat → Nat → Col ℝ) (W H : Nat) (wt : Nat → Nat → ℝ) (x y : Nat) :
    conv w h px W H wt x y = perChannel fun ch => ∑ j ∈ Finset.range H, ∑ i ∈ Finset.range W,
      wt i j * ch (px (nearest w (x + i - (W / 2 : Nat))) (nearest h (y + j - (H / 2 : Nat)))) := by
  unfold conv
  simp only [Exact.total, Exact.mul]

/-- Convolving the mirrored image is convolving with the mirrored table. -/
theorem conv_flipX {w h : Nat} (px : Nat → Nat → Col ℝ) (r H : Nat) (wt : Nat → Nat → ℝ) {x y : Nat}
    (hx : x < w) :
    conv w h (fun x y => px (w - 1 - x) y) (2 * r + 1) H wt x y =
      conv w h px (2 * r + 1) H (fun i j => wt (2 * r - i) j) (w - 1 - x) y := by
  simp only [conv_exact]
  congr 1
  funext ch
  refine Finset.sum_congr rfl fun j _ => ?_
  rw [← Finset.sum_range_reflect]
  refine Finset.sum_congr rfl fun i hi => ?_
  have hi : i < 2 * r + 1 := Finset.mem_range.1 hi
  rw [← nearest_mirror (by omega)]
  have e1 : 2 * r + 1 - 1 - i = 2 * r - i := by omega
  have e2 : ((w : Int) - 1 - (x + ((2 * r + 1 - 1 - i : Nat) : Int) - ((2 * r + 1) / 2 : Nat))) =
      ((w - 1 - x : Nat) : Int) + i - ((2 * r + 1) / 2 : Nat) := by omega
  rw [e2, e1]

/-- Convolving the transposed image is convolving with the transposed table. -/
theorem conv_transpose {w h : Nat} (px : Nat → Nat → Col ℝ) (W H : Nat) (wt : Nat → Nat → ℝ) (x y : Nat) :
    conv h w (fun x y => px y x) W H wt y x = conv w h px H W (fun i j => wt j i) x y := by
  simp only [conv_exact]
  congr 1
  funext ch
  rw [Finset.sum_comm]

/-- A table that looks the same mirrored and transposed. -/
theorem conv_equivariant (r : Nat) (wt : Nat → Nat → ℝ)
    (hm : ∀ i j, i < 2 * r + 1 → j < 2 * r + 1 → wt (2 * r - i) j = wt i j)
    (ht : ∀ i j, i < 2 * r + 1 → j < 2 * r + 1 → wt j i = wt i j) :
    Equivariant (fun w h px x y => conv w h px (2 * r + 1) (2 * r + 1) wt x y) where
  congr h _ _ hx hy := conv_congr_px h _ _ _ hx hy
  flipX px _ _ hx _ := by
    rw [conv_flipX px r _ wt hx]
    exact conv_congr_wt _ hm _ _
  transpose px x y _ _ := by
    rw [conv_transpose]
    exact conv_congr_wt _ ht _ _

/-- C87: convolution with a symmetric table. -/
theorem C87_convolution (r : Nat) (hr : r < 1000) {k : Kernel ℝ} {wt : Nat → Nat → ℝ}
    (hk : k.Holds (2 * r + 1) wt)
    (hm : ∀ i j, i < 2 * r + 1 → j < 2 * r + 1 → wt (2 * r - i) j = wt i j)
    (ht : ∀ i j, i < 2 * r + 1 → j < 2 * r + 1 → wt j i = wt i j)
    {b : PixelBuffer (Col ℝ)} (hb : WellFormed b) :
    NoDirection (fun b => b.apply_kernel (2 * r + 1) k) b :=
  (conv_equivariant r wt hm ht).noDirection (fun _ _ _ _ s => C10_apply_kernel s hk (by omega)) hb

/-- The Gaussian table in exact arithmetic, for every width of the bell (division by zero gives some
value, the same at all places). -/
theorem bell_even (sigma : ℝ) (dx dy : Int) :
    bell sigma (-dx) dy = bell sigma dx dy ∧ bell sigma dx dy = bell sigma dy dx := by
  unfold bell
  ex_simp
  push_cast
  constructor
  · rw [neg_mul_neg]
  · rw [add_comm ((dx : ℝ) * dx)]

theorem blur_equivariant (r : Nat) (sigma : Option ℝ) :
    Equivariant (fun w h px x y => blurred w h px r sigma x y) := by
  refine conv_equivariant r _ ?_ ?_
  · intro i j hi hj
    unfold gaussWeight
    have e : (((2 * r - i : Nat) : Int) - ((2 * r + 1) / 2 : Nat)) = -((i : Int) - ((2 * r + 1) / 2 : Nat)) := by
      omega
    rw [e, (bell_even _ _ _).1]
  · intro i j _ _
    unfold gaussWeight
    rw [(bell_even _ _ _).2]

/-- C87: Gaussian blur. -/
theorem C87_gaussian_blur (r : Nat) (hr : r ≤ 32767) (sigma : Option ℝ) {b : PixelBuffer (Col ℝ)}
    (hb : WellFormed b) : NoDirection (fun b => gaussian_blur b r sigma) b :=
  (blur_equivariant r sigma).noDirection (fun _ _ _ _ s => blur_ok s r hr sigma) hb

theorem sharpened_equivariant (r : Nat) (factor : ℝ) (sigma : Option ℝ) :
    Equivariant (fun w h px x y => sharpened w h px r factor sigma x y) :=
  Equivariant.pixel.map2 (blur_equivariant r sigma) fun p q =>
    perChannel fun ch => Scalar.clamp (lit 0) (lit 1) (ch p +. (ch p -. ch q) *. factor)

/-- C87: unsharp mask. -/
theorem C87_unsharp (r : Nat) (hr : r ≤ 32767) (factor : ℝ) (sigma : Option ℝ) {b : PixelBuffer (Col ℝ)}
    (hb : WellFormed b) : NoDirection (fun b => unsharp b r factor sigma) b :=
  (sharpened_equivariant r factor sigma).noDirection (fun _ _ _ _ s => sharpen_ok s r hr factor sigma) hb

/-! Edge detection -/

theorem conv_neg (w h : Nat) (px : Nat → Nat → Col ℝ) (W H : Nat) (wt : Nat → Nat → ℝ) (x y : Nat)
    (ch : Col ℝ → ℝ) (hch : ch = Col.c0 ∨ ch = Col.c1 ∨ ch = Col.c2) :
    ch (conv w h px W H (fun i j => -wt i j) x y) = -ch (conv w h px W H wt x y) := by
  simp only [conv_exact]
  rcases hch with rfl | rfl | rfl <;>
  · simp only [perChannel, neg_mul, Finset.sum_neg_distrib]

theorem sobel_mirror (i j : Nat) (hi : i < 3) :
    (sobelX (2 - i) j : ℝ) = -sobelX i j ∧ (sobelY (2 - i) j : ℝ) = sobelY i j := by
  unfold sobelX sobelY
  simp only [Exact.lit]
  constructor
  · rw [Nat.cast_sub (by omega)]; split <;> push_cast <;> ring
  · by_cases h : i = 1
    · subst h; rfl
    · rw [if_neg h, if_neg (by omega)]

theorem sobel_transpose (i j : Nat) : (sobelX j i : ℝ) = sobelY i j ∧ (sobelY j i : ℝ) = sobelX i j :=
  ⟨rfl, rfl⟩

theorem sobel_equivariant (ch : Col ℝ → ℝ) (hch : ch = Col.c0 ∨ ch = Col.c1 ∨ ch = Col.c2) :
    Equivariant (fun w h px x y =>
      ch (conv w h px 3 3 sobelX x y) *. ch (conv w h px 3 3 sobelX x y)
          +. ch (conv w h px 3 3 sobelY x y) *. ch (conv w h px 3 3 sobelY x y)) where
  congr h _ _ hx hy := by simp only [conv_congr_px h _ _ _ hx hy]
  flipX px x y hx _ := by
    rw [show (3 : Nat) = 2 * 1 + 1 from rfl]
    simp only [conv_flipX px 1 _ _ hx]
    rw [conv_congr_wt (W := 2 * 1 + 1) (wt := fun i j => sobelX (2 * 1 - i) j) px
        (fun i j hi _ => (sobel_mirror i j hi).1) _ _,
      conv_congr_wt (W := 2 * 1 + 1) (wt := fun i j => sobelY (2 * 1 - i) j) px
        (fun i j hi _ => (sobel_mirror i j hi).2) _ _, conv_neg _ _ _ _ _ _ _ _ ch hch]
    ex_simp
    ring
  transpose px x y _ _ := by
    simp only [conv_transpose]
    ex_simp
    exact add_comm _ _

theorem laplace_equivariant : Equivariant (fun w h px x y => conv w h px 3 3 (Spec.laplace (F := ℝ)) x y) := by
  refine conv_equivariant 1 _ ?_ ?_
  · intro i j hi _
    unfold Spec.laplace
    congr 1
    have : (2 * 1 - i = 1 ∧ j = 1) ↔ (i = 1 ∧ j = 1) := by omega
    simp only [this]
  · intro i j _ _
    unfold Spec.laplace
    simp only [and_comm]

/-- C87: edge detection with both operators. -/
theorem C87_edge_detection (mode : EdgeDetection) {b : PixelBuffer (Col ℝ)} (hb : WellFormed b) :
    NoDirection (fun b => edge_detection b mode) b := by
  cases mode with
  | Sobel =>
    refine (((sobel_equivariant Col.c0 (by simp)).map2 (sobel_equivariant Col.c1 (by simp)) Prod.mk).map2
      (sobel_equivariant Col.c2 (by simp)) fun (p : ℝ × ℝ) (q : ℝ) =>
        (⟨clamp01 (Scalar.sqrt p.1), clamp01 (Scalar.sqrt p.2), clamp01 (Scalar.sqrt q), lit 1⟩ :
          Col ℝ)).noDirection (fun _ _ _ _ s => C47_sobel s) hb
  | Laplace =>
    exact (laplace_equivariant.map fun c => { c with alpha := lit 1 }).noDirection
      (fun _ _ _ _ s => C47_laplace s) hb

/-! Despeckling -/

omit [Junk] in
theorem window_perm_flipX {T : Type} {w h : Nat} (px : Nat → Nat → T) (r : Nat) {x y : Nat} (hx : x < w) :
    (window w h (fun x y => px (w - 1 - x) y) (2 * r + 1) x y).flatten.Perm
      (window w h px (2 * r + 1) (w - 1 - x : Nat) y).flatten := by
  unfold window
  rw [← List.flatMap_def, ← List.flatMap_def]
  refine List.Perm.flatMap_left _ fun ty _ => ?_
  have e : (List.range (2 * r + 1)).map (fun tx : Nat =>
      px (w - 1 - nearest w (x + tx - ((2 * r + 1) / 2 : Nat))) (nearest h (y + ty - ((2 * r + 1) / 2 : Nat)))) =
      ((List.range (2 * r + 1)).map (fun tx : Nat =>
      px (nearest w ((w - 1 - x : Nat) + tx - ((2 * r + 1) / 2 : Nat)))
        (nearest h (y + ty - ((2 * r + 1) / 2 : Nat))))).reverse := by
    apply List.ext_getElem
    · simp
    · intro i h1 h2
      have hi : i < 2 * r + 1 := by simpa using h1
      simp only [List.getElem_map, List.getElem_range, List.getElem_reverse, List.length_map, List.length_range]
      rw [← nearest_mirror (by omega)]
      congr 2
      omega
  rw [e]
  exact List.reverse_perm _

omit [Junk] in
theorem window_flatten {T : Type} (w h : Nat) (px : Nat → Nat → T) (N : Nat) (x y : Int) :
    (window w h px N x y).flatten = rows N N fun tx ty =>
      px (nearest w (x + tx - (N / 2 : Nat))) (nearest h (y + ty - (N / 2 : Nat))) := by
  unfold window rows
  rw [← List.flatMap_def]

omit [Junk] in
theorem window_perm_transpose {T : Type} {w h : Nat} (px : Nat → Nat → T) (N : Nat) (x y : Int) :
    (window h w (fun x y => px y x) N y x).flatten.Perm (window w h px N x y).flatten := by
  simp only [window_flatten]
  exact rows_perm (px := fun tx ty => px (nearest w (x + tx - (N / 2 : Nat))) (nearest h (y + ty - (N / 2 : Nat))))
    (dst := fun x y => (y, x)) (src := fun x y => (y, x)) (Nat.mul_comm _ _) (fun x y hx hy => ⟨hy, hx, rfl⟩)

theorem addUp_perm {l l' : List ℝ} (h : l.Perm l') : addUp l = addUp l' := by
  rw [addUp_sum, addUp_sum, h.sum_eq]

theorem despeckled_equivariant (t : ℝ) (amount : Nat) :
    Equivariant (fun w h px x y => despeckled w h px t amount x y) := by
  let G : List (Col ℝ) → Col ℝ → Col ℝ := fun around c =>
    let darks := around.countP (dark t)
    let brights := around.filter (bright t)
    if dark t c ∧ darks ≤ amount then
      let mean := fun ch => addUp (brights.map ch) /. lit ((9 - darks : Nat) : ℚ)
      Rgb.new_with_alpha (mean Col.c0) (mean Col.c1) (mean Col.c2) c.alpha
    else c
  have hG : ∀ l l', l.Perm l' → ∀ c, G l c = G l' c := by
    intro l l' h c
    have e : ∀ ch : Col ℝ → ℝ, addUp ((l.filter (bright t)).map ch) = addUp ((l'.filter (bright t)).map ch) :=
      fun ch => addUp_perm ((h.filter _).map ch)
    simp only [G, h.countP_eq, e]
  have hd : ∀ w h px (x y : Nat), despeckled w h px t amount x y = G (window w h px 3 x y).flatten (px x y) :=
    fun _ _ _ _ _ => rfl
  constructor
  · intro w h px px' hp x y hx hy
    simp only [hd, window_flatten, hp x y hx hy,
      hp _ _ (nearest_lt (n := w) (by omega) _) (nearest_lt (n := h) (by omega) _)]
  · intro w h px x y hx hy
    simp only [hd]
    exact hG _ _ (window_perm_flipX px 1 hx) _
  · intro w h px x y hx hy
    simp only [hd]
    exact hG _ _ (window_perm_transpose px 3 x y) _

/-- C87: despeckling. -/
theorem C87_despeckle (t : ℝ) (amount : Nat) {b : PixelBuffer (Col ℝ)} (hb : WellFormed b) :
    NoDirection (fun b => despeckle b t amount) b :=
  (despeckled_equivariant t amount).noDirection (fun _ _ _ _ s => C40_despeckle s t amount) hb

/-! Drawing -/

theorem sketch_equivariant (r : Nat) : Equivariant (fun w h px x y => sketch (F := ℝ) w h px r x y) := by
  have light := Equivariant.pixel.map fun c : Col ℝ => Rgb.map_channels c fun v => v *. lit 0.8 +. lit 0.2
  have first := (((sharpened_equivariant 4 (lit 4) (some (lit 5))).comp
    ((blur_equivariant 1 none).comp light))).map fun c => Rgb.with_contrast c (lit 1.05)
  have second := ((blur_equivariant r none).comp light).map Rgb.invert
  have drawn := first.map2 second fun c1 c2 => let d := ink c1 c2; Rgb.new d d d
  exact (despeckled_equivariant (lit 0.15) 1).comp ((sharpened_equivariant 2 (lit 1) none).comp drawn)

theorem reduced_equivariant (r : Nat) :
    Equivariant (fun w h px x y => reduced (F := ℝ) w h (sketch w h px r) px x y) := by
  let hsv := fun (c : Col ℝ) => convert .rgb .hsv c
  have a := (sketch_equivariant r).map2 ((blur_equivariant 2 none).comp (Equivariant.pixel.map paled))
    fun d p => to_rgb .hsv { hsv d with c1 := (hsv p).c1 }
  have b := a.map2 (blur_equivariant 3 none) fun d p => to_rgb .hsv { hsv d with c0 := (hsv p).c0 }
  have c := b.map2 (blur_equivariant 4 none) fun d p =>
    to_rgb .hsv { hsv d with c2 := (hsv d).c2 *. (hsv p).c2 }
  exact ((sharpened_equivariant 3 (lit 1.5) none).comp c).map fun p =>
    Rgb.with_vibrance (Rgb.with_gamma (Rgb.with_saturation p (lit 1.3)) (lit 1.1)) (lit 0.3)

/-- C87: the drawing effect, all modes. -/
theorem C87_drawing (r : Nat) (hr : r ≤ 32767) (mode : DrawingMode) {b : PixelBuffer (Col ℝ)}
    (hb : WellFormed b) : NoDirection (fun b => drawing b r mode) b := by
  cases mode with
  | Gray => exact (sketch_equivariant r).noDirection (fun _ _ _ _ s => (C74_drawing s r .Gray).1 hr) hb
  | Colored =>
    exact ((sketch_equivariant r).map2 Equivariant.pixel colored).noDirection
      (fun _ _ _ _ s => (C74_drawing s r .Colored).1 hr) hb
  | ReducedColors =>
    exact (reduced_equivariant r).noDirection (fun _ _ _ _ s => (C74_drawing s r .ReducedColors).1 hr) hb

/-! Sums over the whole image -/

theorem powers_perm {l l' : List (Col ℝ)} (h : l.Perm l') (t : ℝ) : powers l t = powers l' t := by
  have e : ∀ a b c : Col ℝ → ℝ, excess a b c l = excess a b c l' := fun a b c => addUp_perm (h.map _)
  unfold powers
  simp only [e, h.length_eq]

/-- C87: change of the colour temperature. -/
theorem C87_change_color_temperature (orig new tint : ℝ) {b : PixelBuffer (Col ℝ)} (hb : WellFormed b) :
    NoDirection (fun b => change_color_temperature ℝ b orig new tint) b :=
  (Equivariant.summary (T := Col ℝ) (fun l c => tempered (factors ℝ orig new) (powers l tint) c)
    (fun _ _ h c => by simp only [powers_perm h])).noDirection
    (fun _ _ _ _ s => C68_change s orig new tint) hb

/-- C87: automatic colour temperature. -/
theorem C87_optimize_color_temperature (factor tint : ℝ) {b : PixelBuffer (Col ℝ)} (hb : WellFormed b) :
    NoDirection (fun b => optimize_color_temperature ℝ b factor tint) b := by
  have e := Equivariant.summary (T := Col ℝ) (fun l c =>
    let mean : ℝ := addUp (l.map fun p => Widen.up (F := ℝ) p.c0 -. Widen.up p.c2) /. lit (l.length : ℚ)
    let new : ℝ := Widen.down (lit 6500 -. Scalar.tanh mean *. (Widen.up factor *. lit 4000))
    tempered (factors ℝ (lit 6500) new) (powers l tint) c)
    (fun l l' h c => by
      have e := addUp_perm (h.map fun p : Col ℝ => (Widen.up (F := ℝ) p.c0 : ℝ) -. Widen.up p.c2)
      simp only [powers_perm h, h.length_eq, e])
  refine e.noDirection (fun b w h px s => ?_) hb
  obtain ⟨b', h1, h2⟩ := C68_optimize (D := ℝ) s factor tint
  refine ⟨b', h1, ?_⟩
  simp only [rows_map, rows_length]
  exact h2

/-- C87: lightness optimisation. -/
theorem C87_optimize_lightness (factor : ℝ) {b : PixelBuffer (Col ℝ)} (hb : WellFormed b) :
    NoDirection (fun b => .ok (optimize_lightness ℝ b factor)) b := by
  have e := Equivariant.summary (T := Col ℝ) (fun l c =>
    let m : ℝ := addUp (l.map fun c => Widen.up (F := ℝ) (convert .rgb .hsl c).c2) /. lit (l.length : ℚ)
    Rgb.with_gamma c (lit 1 -. (Widen.down m -. lit 0.5) *. factor))
    (fun l l' h c => by
      have e := addUp_perm (h.map fun c : Col ℝ => (Widen.up (F := ℝ) (convert .rgb .hsl c).c2 : ℝ))
      simp only [h.length_eq, e])
  refine e.noDirection (fun b w h px s => ⟨_, rfl, ?_⟩) hb
  simp only [rows_length]
  exact C73_lightness ℝ s factor

/-- C87: saturation optimisation, all modes. -/
theorem C87_optimize_saturation (offset : ℝ) (mode : SaturationMode) {b : PixelBuffer (Col ℝ)}
    (hb : WellFormed b) : NoDirection (fun b => .ok (optimize_saturation b offset mode)) b := by
  have e := Equivariant.summary (T := Col ℝ) (fun l c =>
    let m : ℝ := addUp (l.map fun c => (convert .rgb (saturationSpace mode) c).c1) /. lit (l.length : ℚ)
    saturated mode (offset +. (lit 1 -. m) /. lit 1.5) c)
    (fun l l' h c => by
      have e := addUp_perm (h.map fun c : Col ℝ => (convert .rgb (saturationSpace mode) c).c1)
      simp only [h.length_eq, e])
  refine e.noDirection (fun b w h px s => ⟨_, rfl, ?_⟩) hb
  simp only [rows_length]
  exact C73_saturation s offset mode

/-! ## An operation with a direction -/

/-- Black, gray, white (or, mirrored, white, gray, black) from left to right. -/
noncomputable def ramp (mirrored : Bool) (x _y : Nat) : Col ℝ :=
  if x = 1 then ⟨1 / 2, 1 / 2, 1 / 2, 1⟩
  else if (x = 0) ↔ (mirrored = true) then ⟨1, 1, 1, 1⟩ else ⟨0, 0, 0, 1⟩

theorem ramp_middle (mirrored : Bool) :
    (smoothed 3 1 (ramp mirrored) 1 false 1 0).c0 = if mirrored then 3 / 8 else 5 / 8 := by
  have hu : ∀ x y, Spec.Unit (ramp mirrored x y) := by
    intro x y
    unfold ramp
    split
    · constructor <;> norm_num
    · split <;> constructor <;> norm_num
  have hm := C43_mean 3 1 (ramp mirrored) hu 1 false 1 0 (.inr (by norm_num))
  simp only [] at hm
  rw [hm]
  have e : picked 3 1 (ramp mirrored) 1 1 0 =
      [ramp mirrored 2 0, ramp mirrored 1 0, ramp mirrored 0 0, ramp mirrored 2 0] := by
    have tie : ∀ c a b : Col ℝ, distance a c = distance b c → nearer c a b = b := by
      intro c a b h
      unfold nearer
      rw [if_neg]
      rw [Exact.lt, h]
      exact lt_irrefl _
    have d : distance (ramp mirrored 0 0) (ramp mirrored 1 0) =
        distance (ramp mirrored 2 0) (ramp mirrored 1 0) := by
      unfold distance ramp
      cases mirrored <;> ex_simp <;> norm_num
    have n0 : nearest 3 0 = 0 := rfl
    have n2 : nearest 3 2 = 2 := rfl
    have n1 : nearest 3 1 = 1 := rfl
    have m0 : nearest 1 0 = 0 := rfl
    have m1 : nearest 1 1 = 0 := rfl
    have m2 : nearest 1 (-1) = 0 := rfl
    unfold picked
    simp only [List.range_one, List.flatMap_cons, List.flatMap_nil, List.map_cons, List.map_nil, List.append_nil]
    norm_num [n0, n1, n2, m0, m1, m2]
    refine ⟨?_, ?_, ?_, ?_⟩
    · exact tie _ _ _ d
    · exact tie _ _ _ rfl
    · exact tie _ _ _ d.symm
    · exact tie _ _ _ d
  rw [e]
  unfold ramp
  cases mirrored <;> norm_num

/-- C87, exception: symmetric nearest neighbour smoothing takes the second of two equally distant
opposite pixels, so on ties it depends on the direction: three pixels black, gray, white in a row and
their mirror image give different middles. -/
theorem C87_snn_direction : ∃ b : PixelBuffer (Col ℝ), WellFormed b ∧
    ¬ NoDirection (fun b => symmetric_nearest_neighbor b 1 false) b := by
  have s : Shows (⟨3, 1, rows 3 1 (ramp false)⟩ : PixelBuffer (Col ℝ)) 3 1 (ramp false) :=
    ⟨rfl, rfl, by simp [ValidSize], rfl⟩
  refine ⟨_, s.wellFormed, fun hn => ?_⟩
  have h := hn (flip_horizontal Rgb.NONE) (by simp)
  simp only [] at h
  obtain ⟨b1, e1, s1⟩ := C13_flip_horizontal (Rgb.NONE : Col ℝ) s
  obtain ⟨b2, e2, s2⟩ := C43_symmetric_nearest_neighbor s 1 (by norm_num) false
  obtain ⟨b3, e3, s3⟩ := C43_symmetric_nearest_neighbor
    (s1.congr (px' := ramp true) (fun x y hx hy => by
      unfold ramp
      by_cases h1 : x = 1
      · subst h1; rfl
      · rw [if_neg h1, if_neg (by omega)]
        by_cases h0 : x = 0
        · subst h0; norm_num
        · have : x = 2 := by omega
          subst this; norm_num)) 1 (by norm_num) false
  obtain ⟨b4, e4, s4⟩ := C13_flip_horizontal (Rgb.NONE : Col ℝ) s2
  rw [e1, e2, ok_bind, ok_bind, e3, e4] at h
  have h34 : b3 = b4 := Except.ok.inj h
  subst h34
  have hp := rows_inj (s3.pixels.symm.trans s4.pixels) (x := 1) (y := 0) (by norm_num) (by norm_num)
  have hc := congrArg Col.c0 hp
  simp only [show 3 - 1 - 1 = 1 from rfl, ramp_middle] at hc
  norm_num at hc

end

/-- An image that meets the hypothesis of the theorems of this file: three by two pixels. -/
example {F : Type} [Scalar F] : WellFormed (⟨3, 2, [Rgb.BLACK, Rgb.WHITE, Rgb.NONE, Rgb.WHITE, Rgb.WHITE,
    Rgb.BLACK]⟩ : PixelBuffer (Col F)) := by simp [WellFormed, ValidSize]

/-- A symmetric table for `C87_convolution` that is not constant. -/
example [Junk] : ∃ k : Kernel ℝ, k.Holds (2 * 1 + 1) (fun i j => if i = 1 ∧ j = 1 then 4 else 1) ∧
    (∀ i j, i < 2 * 1 + 1 → j < 2 * 1 + 1 →
      (if 2 * 1 - i = 1 ∧ j = 1 then (4 : ℝ) else 1) = if i = 1 ∧ j = 1 then 4 else 1) :=
  ⟨⟨_⟩, rfl, fun i j hi hj => by
    have : (2 * 1 - i = 1 ∧ j = 1) ↔ (i = 1 ∧ j = 1) := by omega
    simp only [this]⟩

end D10
