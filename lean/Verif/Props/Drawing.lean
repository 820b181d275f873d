import Verif.SpecDrawing
import Verif.Model.Drawing
import Verif.Props.Convolution
import Verif.Props.Smooth
import Verif.Props.ColorOps

/-!
# The drawing effect and the simulated JPEG quality (C74, C75)
-/

namespace D10
open Spec PixelBuffer

section
variable {F : Type} [Scalar F]

theorem blur_ok [LawfulScalar F] {b : PixelBuffer (Col F)} {w h px} (s : Shows b w h px) (r : Nat)
    (hr : r ≤ 32767) (sigma : Option F) :
    ∃ b', gaussian_blur b r sigma = .ok b' ∧ Shows b' w h (blurred w h px r sigma) :=
  (C12_gaussian_blur s r sigma).1 hr

theorem sharpen_ok [LawfulScalar F] {b : PixelBuffer (Col F)} {w h px} (s : Shows b w h px) (r : Nat)
    (hr : r ≤ 32767) (factor : F) (sigma : Option F) :
    ∃ b', unsharp b r factor sigma = .ok b' ∧ Shows b' w h (sharpened w h px r factor sigma) := by
  obtain ⟨b', bl, h1, h2, bd, h3, h4⟩ := C46_unsharp s r hr factor sigma
  obtain ⟨bl', h5, h6⟩ := blur_ok s r hr sigma
  rw [h1] at h5
  cases h5
  refine ⟨b', h2, h4.congr fun x y hx hy => ?_⟩
  have e : bd x y = blurred w h px r sigma x y := by
    have := h3.getElem? hx hy
    rw [h6.getElem? hx hy] at this
    exact (Option.some.inj this).symm
  simp only [e]
  rfl

theorem compose2_ok {a b : PixelBuffer (Col F)} {w h pa pb} (sa : Shows a w h pa) (sb : Shows b w h pb)
    (f : Col F → Col F → Col F) :
    ∃ b', compose2 a b f = .ok b' ∧ Shows b' w h fun x y => f (pa x y) (pb x y) := by
  obtain ⟨b', h3, s3⟩ := (C38_compose (Rgb.NONE : Col F) [a, b] (by simp [sa.wellFormed, sb.wellFormed]) w h
    (by simp [sa.width, sb.width]) (by simp [sa.height, sb.height])
    (fun _ _ l => match l with | [c1, c2] => f c1 c2 | _ => Rgb.NONE)).1 sa.size
  refine ⟨b', ?_, s3.congr fun x y hx hy => ?_⟩
  · rw [← h3]
    apply compose_slice_congr
    intro x y l hl
    match l, hl with
    | [a, b], _ => rfl
  · simp only [List.map_cons, List.map_nil, pixelOr_shows sa _ hx hy, pixelOr_shows sb _ hx hy]

theorem foldl_append_filter {α : Type} (p : α → Bool) (l acc : List α) :
    l.foldl (fun v x => if p x then v ++ [x] else v) acc = acc ++ l.filter p := by
  induction l generalizing acc with
  | nil => simp
  | cons x t ih =>
    rw [List.foldl_cons, ih, List.filter_cons]
    split <;> simp

theorem drawingPixel_eq (c1 c2 : Col F) :
    drawingPixel c1 c2 = Rgb.new (ink c1 c2) (ink c1 c2) (ink c1 c2) := by
  have e : ([(c1.c0, c2.c0), (c1.c1, c2.c1), (c1.c2, c2.c2)].foldl (fun v (p : F × F) =>
      if (lit 0.8 <. p.1) || (p.2 <. lit 0.2) then v ++ [p] else v)
      (if (lit 0.05 <. grayAverage c1) || (grayAverage c2 <. lit 0.95) then
        [] ++ [(grayAverage c1, grayAverage c2)] else [])) = counted c1 c2 := by
    rw [foldl_append_filter (fun p : F × F => (lit 0.8 <. p.1) || (p.2 <. lit 0.2))]
    unfold counted
    congr 1
    rw [List.filter_cons]
    rfl
  unfold drawingPixel
  simp only [e]
  rfl

/-- C74: the drawing keeps the size, its pixels are those of the specification; only a radius above
32767 panics. -/
theorem C74_drawing [LawfulScalar F] {b : PixelBuffer (Col F)} {w h px} (s : Shows b w h px)
    (r : Nat) (mode : DrawingMode) :
    (r ≤ 32767 → ∃ b', drawing b r mode = .ok b' ∧ Shows b' w h (match mode with
      | .Gray => sketch w h px r
      | .Colored => fun x y => colored (sketch w h px r x y) (px x y)
      | .ReducedColors => reduced w h (sketch w h px r) px)) ∧
    (32767 < r → drawing b r mode = .error .overflow) := by
  have sl := C07_map_colors s fun c => Rgb.map_channels c fun v => v *. lit 0.8 +. lit 0.2
  obtain ⟨b1, h1, s1⟩ := blur_ok sl 1 (by norm_num) none
  obtain ⟨b2, h2, s2⟩ := sharpen_ok s1 4 (by norm_num) (lit 4) (some (lit 5))
  have s3 := C07_map_colors s2 fun c => Rgb.with_contrast c (lit 1.05)
  unfold drawing
  simp only []
  rw [h1, ok_bind, h2, ok_bind]
  constructor
  · intro hr
    obtain ⟨b4, h4, s4⟩ := blur_ok sl r hr none
    have s5 := C07_map_colors s4 Rgb.invert
    obtain ⟨b6, h6, s6⟩ := compose2_ok s3 s5 drawingPixel
    obtain ⟨b7, h7, s7⟩ := sharpen_ok s6 2 (by norm_num) (lit 1) none
    obtain ⟨b8, h8, s8⟩ := C40_despeckle s7 (lit 0.15) 1
    rw [h4, ok_bind, h6, ok_bind, h7, ok_bind, h8, ok_bind]
    have s9 : Shows b8 w h (sketch w h px r) := by
      simp only [drawingPixel_eq] at s8
      exact s8
    cases mode with
    | Gray => exact ⟨b8, rfl, s9⟩
    | Colored => exact compose2_ok s9 s _
    | ReducedColors =>
      show ∃ b', merge_color_reduced b8 b = .ok b' ∧ _
      obtain ⟨c1, k1, t1⟩ := blur_ok (C07_map_colors s reduceColor) 2 (by norm_num) none
      obtain ⟨c2, k2, t2⟩ := compose2_ok s9 t1 fun c1 c2 =>
        Hsv.to_rgb { Rgb.to_hsv c1 with c1 := (Rgb.to_hsv c2).c1 }
      obtain ⟨c3, k3, t3⟩ := blur_ok s 3 (by norm_num) none
      obtain ⟨c4, k4, t4⟩ := compose2_ok t2 t3 fun c1 c2 =>
        Hsv.to_rgb { Rgb.to_hsv c1 with c0 := (Rgb.to_hsv c2).c0 }
      obtain ⟨c5, k5, t5⟩ := blur_ok s 4 (by norm_num) none
      obtain ⟨c6, k6, t6⟩ := compose2_ok t4 t5 fun c1 c2 =>
        let c := Rgb.to_hsv c1
        Hsv.to_rgb { c with c2 := c.c2 *. (Rgb.to_hsv c2).c2 }
      obtain ⟨c7, k7, t7⟩ := sharpen_ok t6 3 (by norm_num) (lit 1.5) none
      unfold merge_color_reduced
      simp only []
      rw [k1, ok_bind, k2, ok_bind, k3, ok_bind, k4, ok_bind, k5, ok_bind, k6, ok_bind, k7, ok_bind]
      exact ⟨_, rfl, C07_map_colors t7 _⟩
  · intro hr
    rw [(C12_gaussian_blur sl r none).2 hr]
    rfl

/-- Non-vacuity: a picture of two different pixels. -/
example : Shows (⟨2, 1, [Rgb.BLACK, Rgb.WHITE]⟩ : PixelBuffer (Col F)) 2 1
    fun x _ => if x = 0 then Rgb.BLACK else Rgb.WHITE :=
  ⟨rfl, rfl, by simp [ValidSize], rfl⟩

/-- C74: in gray mode the three colour channels of every pixel are the same value. -/
theorem C74_gray (w h : Nat) (px : Nat → Nat → Col F) (r x y : Nat) :
    (sketch w h px r x y).c1 = (sketch w h px r x y).c0 ∧
    (sketch w h px r x y).c2 = (sketch w h px r x y).c0 := by
  have key : ∀ q : Nat → Nat → Col F, (∀ x y, (q x y).c1 = (q x y).c0 ∧ (q x y).c2 = (q x y).c0) →
      ∀ x y, (despeckled w h (sharpened w h q 2 (lit 1) none) (lit 0.15) 1 x y).c1 =
        (despeckled w h (sharpened w h q 2 (lit 1) none) (lit 0.15) 1 x y).c0 ∧
        (despeckled w h (sharpened w h q 2 (lit 1) none) (lit 0.15) 1 x y).c2 =
        (despeckled w h (sharpened w h q 2 (lit 1) none) (lit 0.15) 1 x y).c0 := by
    intro q hq
    have hs : ∀ x y, (sharpened w h q 2 (lit 1) none x y).c1 = (sharpened w h q 2 (lit 1) none x y).c0 ∧
        (sharpened w h q 2 (lit 1) none x y).c2 = (sharpened w h q 2 (lit 1) none x y).c0 := by
      intro x y
      simp only [sharpened, blurred, conv, perChannel, (hq _ _).1, (hq _ _).2, and_self]
    generalize sharpened w h q 2 (lit 1) none = q' at hs
    intro x y
    unfold despeckled
    simp only []
    split
    · have hall : ∀ c ∈ (window w h q' 3 x y).flatten, c.c1 = c.c0 ∧ c.c2 = c.c0 := by
        intro c hc
        simp only [window, List.mem_flatten, List.mem_map, List.mem_range] at hc
        obtain ⟨l, ⟨j, _, rfl⟩, hc⟩ := hc
        simp only [List.mem_map, List.mem_range] at hc
        obtain ⟨i, _, rfl⟩ := hc
        exact hs _ _
      have e1 : ((window w h q' 3 x y).flatten.filter (bright (lit 0.15))).map Col.c1 =
          ((window w h q' 3 x y).flatten.filter (bright (lit 0.15))).map Col.c0 :=
        List.map_congr_left fun c hc => (hall c (List.mem_of_mem_filter hc)).1
      have e2 : ((window w h q' 3 x y).flatten.filter (bright (lit 0.15))).map Col.c2 =
          ((window w h q' 3 x y).flatten.filter (bright (lit 0.15))).map Col.c0 :=
        List.map_congr_left fun c hc => (hall c (List.mem_of_mem_filter hc)).2
      rw [e1, e2]
      exact ⟨rfl, rfl⟩
    · exact hs _ _
  exact key _ (fun x y => ⟨rfl, rfl⟩) x y

/-- C74: in colored mode an alpha in [0, 1] of the original is kept. -/
theorem C74_colored_alpha [LawfulScalar F] (d o : Col F) (h0 : (lit 0 <=. o.alpha) = true)
    (h1 : (o.alpha <=. lit 1) = true) : (colored d o).alpha = o.alpha := by
  have ha : (convert .rgb .hsl o).alpha = o.alpha := to_hsl_alpha o
  unfold colored
  refine (to_rgb_alpha .hsl ⟨_, _, _, (convert .rgb .hsl o).alpha⟩ ?_).trans ha
  simp only [ha]
  exact clamp01_id h0 h1

end

/-! ### Exact arithmetic -/

section
variable [Junk]

/-- C74, exact: the gray drawing is opaque. -/
theorem C74_opaque (w h : Nat) (px : Nat → Nat → Col ℝ) (r x y : Nat) :
    (sketch w h px r x y).alpha = 1 := by
  have hb : ∀ q : Nat → Nat → Col ℝ, (∀ x y, (q x y).alpha = 1) → ∀ x y,
      (blurred w h q 2 none x y).alpha = 1 := by
    intro q hq x y
    have hsig : ((lit ((2 * 2 + 1 : Nat) : ℚ) : ℝ) -. lit 1) /. lit 4 ≠ 0 := by
      ex_simp
      norm_num
    unfold blurred conv perChannel
    simp only [Option.getD_none, Exact.total, Exact.mul, hq, mul_one]
    exact gaussWeight_sum (2 * 2 + 1) (by norm_num) _ hsig
  have hs : ∀ q : Nat → Nat → Col ℝ, (∀ x y, (q x y).alpha = 1) → ∀ x y,
      (sharpened w h q 2 (lit 1) none x y).alpha = 1 := by
    intro q hq x y
    show clamp01 ((q x y).alpha +. ((q x y).alpha -. (blurred w h q 2 none x y).alpha) *. lit 1) = 1
    rw [hb q hq, hq]
    ex_simp
    rw [sub_self, zero_mul, add_zero, Exact.clamp01_id (by norm_num) (le_refl _)]
  have hd : ∀ q : Nat → Nat → Col ℝ, (∀ x y, (q x y).alpha = 1) → ∀ x y,
      (despeckled w h q (lit 0.15) 1 x y).alpha = 1 := by
    intro q hq x y
    unfold despeckled
    simp only []
    split
    · show clamp01 (q x y).alpha = 1
      rw [hq, Exact.clamp01_id (by norm_num) (le_refl _)]
    · exact hq _ _
  have h1 : ∀ d : ℝ, (Rgb.new d d d).alpha = 1 := by
    intro d
    show (lit 1 : ℝ) = 1
    ex_simp
  unfold sketch
  exact hd _ (hs _ fun x y => h1 _) x y

end

/-! ## C75 Simulated JPEG quality -/

section
variable {F : Type} [Scalar F]

omit [Scalar F] in
theorem copyAlpha_eq (a b : List (Col F)) (h : a.length = b.length) :
    copyAlpha a b = List.zipWith (fun i o => { o with alpha := i.alpha }) a b := by
  induction a generalizing b with
  | nil => cases b <;> simp_all [copyAlpha]
  | cons x t ih =>
    cases b with
    | nil => simp at h
    | cons y u => simp [copyAlpha, ih u (by simpa using h)]

omit [Scalar F] in
/-- C75: whatever buffer the codec decodes is the result, with the same colours; with
`preserve_alpha` it takes the alpha of the original pixels, if the codec keeps the size at the same
position. -/
theorem C75_jpeg_quality (codec : PixelBuffer (Col F) → Nat → Option (PixelBuffer (Col F)))
    {b out : PixelBuffer (Col F)} {w h px qx} (s : Shows b w h px) (quality : Nat)
    (hc : codec b quality = some out) (so : Shows out w h qx) (preserve : Bool) :
    ∃ b', jpeg_quality codec b quality preserve = .ok b' ∧
      Shows b' w h fun x y => if preserve then { qx x y with alpha := (px x y).alpha } else qx x y := by
  unfold jpeg_quality
  rw [hc]
  cases preserve with
  | false => exact ⟨out, rfl, so⟩
  | true =>
    refine ⟨_, rfl, so.width, so.height, so.size, ?_⟩
    show copyAlpha b.data out.data = _
    rw [s.pixels, so.pixels, copyAlpha_eq _ _ (by rw [rows_length, rows_length]), rows_eq_range,
      rows_eq_range, rows_eq_range, List.zipWith_map, List.zipWith_self]
    rfl

omit [Scalar F] in
/-- C75: if the encoder or the decoder fails, the call panics. -/
theorem C75_codec_error (codec : PixelBuffer (Col F) → Nat → Option (PixelBuffer (Col F)))
    (b : PixelBuffer (Col F)) (quality : Nat) (hc : codec b quality = none) (preserve : Bool) :
    jpeg_quality codec b quality preserve = .error .unwrap := by
  unfold jpeg_quality; rw [hc]

/-- Non-vacuity: a codec that drops alpha. -/
example : ∃ b', jpeg_quality (F := F) (fun b _ => some (b.map_colors fun c => { c with alpha := lit 1 }))
    ⟨2, 1, [Rgb.BLACK, Rgb.NONE]⟩ 50 true = .ok b' ∧ b'.data = [Rgb.BLACK, Rgb.NONE] := ⟨_, rfl, rfl⟩

/-! ## C76 Buffer conversions and predicates -/

/-- C76: a converted buffer has the same size, and every pixel is converted. -/
theorem C76_convert (src dst : Space) {b : PixelBuffer (Col F)} {w h px} (s : Shows b w h px) :
    Shows (b.convert src dst) w h fun x y => convert src dst (px x y) := by
  refine ⟨s.width, s.height, s.size, ?_⟩
  show b.data.map _ = _
  rw [s.pixels, rows_map]

theorem mem_rows {T : Type} {w h : Nat} {px : Nat → Nat → T} {c : T} :
    c ∈ rows w h px ↔ ∃ x y, x < w ∧ y < h ∧ px x y = c := by
  constructor
  · intro hc
    rw [rows_eq_range, List.mem_map] at hc
    obtain ⟨i, hi, rfl⟩ := hc
    exact ⟨i % w, i / w, mod_lt (List.mem_range.1 hi), div_lt (List.mem_range.1 hi), rfl⟩
  · rintro ⟨x, y, hx, hy, rfl⟩
    exact List.mem_of_getElem? (rows_getElem? px hx hy)

/-- C76: a picture has transparency exactly if a pixel has an alpha that differs from 1 by more than
1/32768 (the crate's tolerance). -/
theorem C76_has_transparency {b : PixelBuffer (Col F)} {w h px} (s : Shows b w h px) :
    b.has_transparency = true ↔ ∃ x y, x < w ∧ y < h ∧
      ((lit 1 /. lit 32768 : F) <. Scalar.abs (lit 1 -. (px x y).alpha)) = true := by
  unfold PixelBuffer.has_transparency
  rw [s.pixels, List.any_eq_true]
  constructor
  · rintro ⟨c, hc, ht⟩
    obtain ⟨x, y, hx, hy, rfl⟩ := mem_rows.1 hc
    exact ⟨x, y, hx, hy, ht⟩
  · rintro ⟨x, y, hx, hy, ht⟩
    exact ⟨_, mem_rows.2 ⟨x, y, hx, hy, rfl⟩, ht⟩

/-- C76: a picture is grayscale exactly if in every pixel red and green, and green and blue, differ
by less than the tolerance. -/
theorem C76_is_grayscale {b : PixelBuffer (Col F)} {w h px} (s : Shows b w h px) :
    b.is_grayscale = true ↔ ∀ x y, x < w → y < h →
      (Scalar.abs ((px x y).c0 -. (px x y).c1) <. (lit 1 /. lit 32768 : F)) = true ∧
      (Scalar.abs ((px x y).c1 -. (px x y).c2) <. (lit 1 /. lit 32768 : F)) = true := by
  unfold PixelBuffer.is_grayscale
  rw [s.pixels, List.all_eq_true]
  constructor
  · intro hc x y hx hy
    exact Bool.and_eq_true_iff.1 (hc _ (mem_rows.2 ⟨x, y, hx, hy, rfl⟩))
  · intro hc c hm
    obtain ⟨x, y, hx, hy, rfl⟩ := mem_rows.1 hm
    exact Bool.and_eq_true_iff.2 (hc x y hx hy)

/-- C76 in binary32: a picture all of whose pixels have alpha 1 and equal finite channels is opaque
and grayscale; one pixel with a NaN channel makes it not grayscale. -/
theorem C76_f32 [Libm b32] {b : PixelBuffer (Col F32)} {w h px} (s : Shows b w h px) :
    ((∀ x y, x < w → y < h → (px x y).alpha = lit 1) → b.has_transparency = false) ∧
    ((∀ x y, x < w → y < h → (px x y).c0.fin = true ∧ (px x y).c1 = (px x y).c0 ∧
      (px x y).c2 = (px x y).c0) → b.is_grayscale = true) ∧
    ((∃ x y, x < w ∧ y < h ∧ ((px x y).c0 = .nan ∨ (px x y).c1 = .nan ∨ (px x y).c2 = .nan)) →
      b.is_grayscale = false) := by
  have zero : ∀ v : F32, v.fin = true → Scalar.abs (v -. v) = FP.zero false := by
    intro v hv
    obtain ⟨s, hs⟩ := FP.sub_self_fin hv
    have hs : v -. v = FP.zero s := hs
    rw [hs]
    cases s <;> rfl
  have pos : (FP.zero false <. (lit 1 /. lit 32768 : F32)) = true ∧
      ((lit 1 /. lit 32768 : F32) <. FP.zero false) = false := by
    constructor
    · show FP.lt _ (EPSILON : F32) = true
      rw [FP.lt_fin rfl FP.epsilon.1, FP.epsilon.2]; simp [FP.val]
    · show FP.lt (EPSILON : F32) _ = false
      rw [FP.lt_fin FP.epsilon.1 rfl, FP.epsilon.2]; simp [FP.val]
  refine ⟨fun hall => ?_, fun hall => ?_, ?_⟩
  · rw [Bool.eq_false_iff]
    intro ht
    obtain ⟨x, y, hx, hy, hlt⟩ := (C76_has_transparency s).1 ht
    rw [hall x y hx hy, zero (lit 1) FP.lit1.1, pos.2] at hlt
    cases hlt
  · refine (C76_is_grayscale s).2 fun x y hx hy => ?_
    obtain ⟨hf, e1, e2⟩ := hall x y hx hy
    rw [e1, e2, zero _ hf]
    exact ⟨pos.1, pos.1⟩
  · rintro ⟨x, y, hx, hy, hn⟩
    rw [Bool.eq_false_iff]
    intro hg
    obtain ⟨g1, g2⟩ := (C76_is_grayscale s).1 hg x y hx hy
    have l : ∀ v : F32, Scalar.abs ((.nan : F32) -. v) = .nan := by intro v; cases v <;> rfl
    have r : ∀ v : F32, Scalar.abs (v -. (.nan : F32)) = .nan := by intro v; cases v <;> rfl
    have n : ((.nan : F32) <. (lit 1 /. lit 32768 : F32)) = false := LawfulScalar.lt_nan_left _ _ rfl
    rcases hn with hn | hn | hn
    · rw [hn, l, n] at g1; cases g1
    · rw [hn, l, n] at g2; cases g2
    · rw [hn, r, n] at g2; cases g2

end
end D10
