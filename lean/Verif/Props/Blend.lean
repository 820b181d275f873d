import Verif.Model.Blend
import Verif.Props.Buffer
import Verif.Props.ColorOps
import Verif.Props.ColorRange

/-!
# Blending two images (C36, C37)
-/

namespace D10
open Spec

/-! ## C36: the shape of the result -/

/-- The public blend function belonging to a mode. -/
def Spec.modeFunction {F : Type} [Scalar F] : BlendOp → Col F → Col F → F → Col F
  | .Normal => blend_normal
  | .Addition => blend_addition
  | .Subtract => blend_subtract
  | .Darken => blend_darken
  | .Lighten => blend_lighten
  | .HslDarken => blend_hsl_darken
  | .HslLighten => blend_hsl_lighten
  | .LchDarken => blend_lch_darken
  | .LchLighten => blend_lch_lighten
  | .LchHue => blend_lch_hue
  | .LchSaturation => blend_lch_saturation
  | .LchColor => blend_lch_color

theorem blend_with_func {F : Type} [Scalar F] {a b : PixelBuffer (Col F)} {w h p w' h' p'}
    (ha : Shows a w h p) (hb : Shows b w' h' p') (i : F) (f : Col F → Col F → F → Col F) :
    (ValidSize (max w w') (max h h') →
      ∃ r, blend_image_with_func a b i f = .ok r ∧
        Shows r (max w w') (max h h') fun x y =>
          if x < w ∧ y < h then
            (if x < w' ∧ y < h' then f (p x y) (p' x y) i else p x y)
          else (if x < w' ∧ y < h' then p' x y else Rgb.NONE)) ∧
    (¬ ValidSize (max w w') (max h h') → blend_image_with_func a b i f = .error .invalidSize) := by
  unfold blend_image_with_func
  rw [ha.width, hb.width, ha.height, hb.height]
  have hw := ha.size.width_le
  have hh := ha.size.height_le
  have hw' := hb.size.width_le
  have hh' := hb.size.height_le
  refine C02_new_from_func _ _ _ _ ?_
  intro x y hx hy
  have ex : asI32 x = (x : Int) := asI32_of_lt (by omega)
  have ey : asI32 y = (y : Int) := asI32_of_lt (by omega)
  rw [ex, ey, C05_get_pixel_optional ha, C05_get_pixel_optional hb]
  simp only [ok_bind]
  by_cases c1 : x < w ∧ y < h
  · rw [if_pos (by omega), if_pos c1]
    by_cases c2 : x < w' ∧ y < h'
    · rw [if_pos (by omega), if_pos c2]; rfl
    · rw [if_neg (by omega), if_neg c2]; rfl
  · rw [if_neg (by omega), if_neg c1]
    by_cases c2 : x < w' ∧ y < h'
    · rw [if_pos (by omega), if_pos c2]; rfl
    · rw [if_neg (by omega), if_neg c2]; rfl

/-- C36: the blend of two images has the larger width and the larger height. Where both have a pixel
the mode's function decides, where one has a pixel that one is copied, elsewhere the result is fully
transparent. It panics exactly if that size is not allowed. Any number type, mode and intensity. -/
theorem C36_blend_image {F : Type} [Scalar F] {a b : PixelBuffer (Col F)} {w h p w' h' p'}
    (ha : Shows a w h p) (hb : Shows b w' h' p') (op : BlendOp) (i : F) :
    (ValidSize (max w w') (max h h') →
      ∃ r, blend_image a b op i = .ok r ∧
        Shows r (max w w') (max h h') fun x y =>
          if x < w ∧ y < h then
            (if x < w' ∧ y < h' then modeFunction op (p x y) (p' x y) i else p x y)
          else (if x < w' ∧ y < h' then p' x y else ⟨lit 0, lit 0, lit 0, lit 0⟩)) ∧
    (¬ ValidSize (max w w') (max h h') → blend_image a b op i = .error .invalidSize) := by
  have := blend_with_func ha hb i (modeFunction op)
  cases op <;> exact this

/-- Two images that cannot be blended: 1 x 32768 and 32768 x 1 would give 2^30 pixels. -/
example [Libm b32] : ∃ a b : PixelBuffer (Col F32), WellFormed a ∧ WellFormed b ∧
    blend_image a b .Normal (lit 1) = .error .invalidSize := by
  have ha : ∀ w h : Nat, ValidSize w h →
      Shows (⟨w, h, rows w h fun _ _ => Rgb.NONE⟩ : PixelBuffer (Col F32)) w h fun _ _ => Rgb.NONE :=
    fun w h v => ⟨rfl, rfl, v, rfl⟩
  have h1 := ha 1 32768 (by unfold ValidSize; omega)
  have h2 := ha 32768 1 (by unfold ValidSize; omega)
  refine ⟨_, _, h1.wellFormed, h2.wellFormed, (C36_blend_image h1 h2 .Normal (lit 1)).2 ?_⟩
  rw [max_eq_right (by norm_num), max_eq_left (by norm_num)]
  unfold ValidSize
  omega

/-- And two that can. -/
example [Libm b32] (c d : Col F32) :
    ∃ r, blend_image ⟨2, 1, [c, c]⟩ ⟨1, 2, [d, d]⟩ .Darken (lit 0.5) = .ok r ∧
      r = ⟨2, 2, [blend_darken c d (lit 0.5), c, d, Rgb.NONE]⟩ := by
  have h1 : Shows (⟨2, 1, [c, c]⟩ : PixelBuffer (Col F32)) 2 1 fun _ _ => c :=
    ⟨rfl, rfl, by unfold ValidSize; omega, rfl⟩
  have h2 : Shows (⟨1, 2, [d, d]⟩ : PixelBuffer (Col F32)) 1 2 fun _ _ => d :=
    ⟨rfl, rfl, by unfold ValidSize; omega, rfl⟩
  obtain ⟨r, e, s⟩ := (C36_blend_image h1 h2 .Darken (lit 0.5)).1
    (by rw [max_eq_left (by norm_num), max_eq_right (by norm_num)]; unfold ValidSize; omega)
  refine ⟨r, e, ?_⟩
  exact s.eq ⟨rfl, rfl, s.size, rfl⟩

/-! ## C37: what the modes compute -/

/-- The channel formula of the modes that work channel by channel. -/
noncomputable def Spec.channelMode : BlendOp → Option (ℝ → ℝ → ℝ)
  | .Addition => some fun base over => base + over
  | .Subtract => some fun base over => base - over
  | .Darken => some fun base over => min base over
  | .Lighten => some fun base over => max base over
  | _ => none

/-- Going from `a` to `b` by the fraction `t`. -/
noncomputable def Spec.mix (a b t : ℝ) : ℝ := a + t * (b - a)

section
variable [Junk]

theorem apply_intensity_eq (a b t : ℝ) : apply_intensity a b t = mix a b t := by
  unfold apply_intensity mix; ex_simp; ring

theorem blend_color_eq (c1 c2 : Col ℝ) (h2 : Spec.Unit c2) (i : ℝ) (f : ℝ → ℝ → ℝ) :
    blend_color c1 c2 i f =
      ⟨max 0 (min 1 (mix c1.c0 (f c1.c0 c2.c0) (i * c2.alpha))),
       max 0 (min 1 (mix c1.c1 (f c1.c1 c2.c1) (i * c2.alpha))),
       max 0 (min 1 (mix c1.c2 (f c1.c2 c2.c2) (i * c2.alpha))), c2.alpha⟩ := by
  obtain ⟨-, -, -, -, -, -, a0, a1⟩ := h2
  unfold blend_color Rgb.new_with_alpha
  simp only [apply_intensity_eq, Exact.clamp01, Exact.mul]
  rw [min_eq_right a1, max_eq_right a0]

/-- C37: addition, subtract, darken and lighten go from the base channel towards the mode's value by
the fraction intensity × overlay alpha; the result is limited to [0, 1]; the alpha of the result is
the overlay's, whatever the intensity. -/
theorem C37_channel_modes (op : BlendOp) (f : ℝ → ℝ → ℝ) (hop : channelMode op = some f)
    (c1 c2 : Col ℝ) (h2 : Spec.Unit c2) (i : ℝ) :
    modeFunction op c1 c2 i =
      ⟨max 0 (min 1 (mix c1.c0 (f c1.c0 c2.c0) (i * c2.alpha))),
       max 0 (min 1 (mix c1.c1 (f c1.c1 c2.c1) (i * c2.alpha))),
       max 0 (min 1 (mix c1.c2 (f c1.c2 c2.c2) (i * c2.alpha))), c2.alpha⟩ := by
  cases op <;> simp only [channelMode, Option.some.injEq, reduceCtorEq] at hop <;> subst hop
  · exact (blend_color_eq c1 c2 h2 i _)
  · exact (blend_color_eq c1 c2 h2 i _)
  · rw [← blend_color_eq c1 c2 h2 i]
    unfold modeFunction blend_darken
    simp only [Exact.min]
  · rw [← blend_color_eq c1 c2 h2 i]
    unfold modeFunction blend_lighten
    simp only [Exact.max]

omit [Junk] in
theorem unit_clamp {x : ℝ} (h0 : 0 ≤ x) (h1 : x ≤ 1) : max 0 (min 1 x) = x := by
  rw [min_eq_right h1, max_eq_right h0]

/-- C37: intensity 0 keeps the three colour channels of the base (but not its alpha). -/
theorem C37_intensity_zero (op : BlendOp) (f : ℝ → ℝ → ℝ) (hop : channelMode op = some f)
    (c1 c2 : Col ℝ) (h1 : Spec.Unit c1) (h2 : Spec.Unit c2) :
    modeFunction op c1 c2 0 = { c1 with alpha := c2.alpha } := by
  rw [C37_channel_modes op f hop c1 c2 h2 0]
  obtain ⟨r0, r1, g0, g1, b0, b1, -, -⟩ := h1
  simp only [mix, zero_mul, add_zero, unit_clamp r0 r1, unit_clamp g0 g1, unit_clamp b0 b1]

/-- C37: intensity 1 with an opaque overlay gives the sum (at most 1), the difference (at least 0),
the darker or the lighter of the two channels. -/
theorem C37_intensity_one (c1 c2 : Col ℝ) (h1 : Spec.Unit c1) (h2 : Spec.Unit c2)
    (ho : c2.alpha = 1) :
    modeFunction .Addition c1 c2 1 =
      ⟨min 1 (c1.c0 + c2.c0), min 1 (c1.c1 + c2.c1), min 1 (c1.c2 + c2.c2), 1⟩ ∧
    modeFunction .Subtract c1 c2 1 =
      ⟨max 0 (c1.c0 - c2.c0), max 0 (c1.c1 - c2.c1), max 0 (c1.c2 - c2.c2), 1⟩ ∧
    modeFunction .Darken c1 c2 1 =
      ⟨min c1.c0 c2.c0, min c1.c1 c2.c1, min c1.c2 c2.c2, 1⟩ ∧
    modeFunction .Lighten c1 c2 1 =
      ⟨max c1.c0 c2.c0, max c1.c1 c2.c1, max c1.c2 c2.c2, 1⟩ := by
  have m1 : ∀ a b : ℝ, mix a b (1 * 1) = b := fun a b => by unfold mix; ring
  have e := fun op f hop => C37_channel_modes op f hop c1 c2 h2 1
  simp only [ho, m1] at e
  rw [e .Addition _ rfl, e .Subtract _ rfl, e .Darken _ rfl, e .Lighten _ rfl]
  obtain ⟨r0, r1, g0, g1, b0, b1, -, -⟩ := h1
  obtain ⟨r0', r1', g0', g1', b0', b1', -, -⟩ := h2
  have ad : ∀ a b : ℝ, 0 ≤ a → 0 ≤ b → max 0 (min 1 (a + b)) = min 1 (a + b) := fun a b ha hb =>
    max_eq_right (le_min zero_le_one (by linarith))
  have su : ∀ a b : ℝ, a ≤ 1 → 0 ≤ b → max 0 (min 1 (a - b)) = max 0 (a - b) := fun a b ha hb => by
    rw [min_eq_right (by linarith)]
  have da : ∀ a b : ℝ, 0 ≤ a → a ≤ 1 → 0 ≤ b → max 0 (min 1 (min a b)) = min a b :=
    fun a b h0 h1 hb => unit_clamp (le_min h0 hb) ((min_le_left _ _).trans h1)
  have li : ∀ a b : ℝ, 0 ≤ a → a ≤ 1 → b ≤ 1 → max 0 (min 1 (max a b)) = max a b :=
    fun a b h0 h1 hb => unit_clamp (h0.trans (le_max_left _ _)) (max_le h1 hb)
  refine ⟨?_, ?_, ?_, ?_⟩
  · rw [ad _ _ r0 r0', ad _ _ g0 g0', ad _ _ b0 b0']
  · rw [su _ _ r1 r0', su _ _ g1 g0', su _ _ b1 b0']
  · rw [da _ _ r0 r1 r0', da _ _ g0 g1 g0', da _ _ b0 b1 b0']
  · rw [li _ _ r0 r1 r1', li _ _ g0 g1 g1', li _ _ b0 b1 b1']

/-- C37: for intensities in [0, 1] darken never brightens and lighten never darkens a channel. -/
theorem C37_darken_lighten (c1 c2 : Col ℝ) (h1 : Spec.Unit c1) (h2 : Spec.Unit c2) (i : ℝ)
    (i0 : 0 ≤ i) :
    ((modeFunction .Darken c1 c2 i).c0 ≤ c1.c0 ∧ (modeFunction .Darken c1 c2 i).c1 ≤ c1.c1 ∧
      (modeFunction .Darken c1 c2 i).c2 ≤ c1.c2) ∧
    (c1.c0 ≤ (modeFunction .Lighten c1 c2 i).c0 ∧ c1.c1 ≤ (modeFunction .Lighten c1 c2 i).c1 ∧
      c1.c2 ≤ (modeFunction .Lighten c1 c2 i).c2) := by
  have e := fun op f hop => C37_channel_modes op f hop c1 c2 h2 i
  rw [e .Darken _ rfl, e .Lighten _ rfl]
  obtain ⟨r0, r1, g0, g1, b0, b1, -, -⟩ := h1
  obtain ⟨-, -, -, -, -, -, a0, a1⟩ := h2
  have t0 : 0 ≤ i * c2.alpha := mul_nonneg i0 a0
  have da : ∀ a b : ℝ, 0 ≤ a → max 0 (min 1 (mix a (min a b) (i * c2.alpha))) ≤ a := by
    intro a b ha
    refine max_le ha ((min_le_right _ _).trans ?_)
    unfold mix
    have : i * c2.alpha * (min a b - a) ≤ 0 :=
      mul_nonpos_of_nonneg_of_nonpos t0 (by linarith [min_le_left a b])
    linarith
  have li : ∀ a b : ℝ, a ≤ 1 → a ≤ max 0 (min 1 (mix a (max a b) (i * c2.alpha))) := by
    intro a b ha
    refine le_max_of_le_right (le_min ha ?_)
    unfold mix
    have : 0 ≤ i * c2.alpha * (max a b - a) := mul_nonneg t0 (by linarith [le_max_left a b])
    linarith
  exact ⟨⟨da _ _ r0, da _ _ g0, da _ _ b0⟩, ⟨li _ _ r1, li _ _ g1, li _ _ b1⟩⟩

/-- C37: the normal mode lays the overlay with its alpha scaled by the intensity over the base. -/
theorem C37_normal (c1 c2 : Col ℝ) (h1 : Spec.Unit c1) (h2 : Spec.Unit c2) (i : ℝ)
    (i0 : 0 ≤ i) (i1 : i ≤ 1) :
    modeFunction .Normal c1 c2 i =
      ⟨mix c1.c0 c2.c0 (i * c2.alpha), mix c1.c1 c2.c1 (i * c2.alpha),
       mix c1.c2 c2.c2 (i * c2.alpha), min 1 (c1.alpha + i * c2.alpha)⟩ := by
  obtain ⟨r0, r1, g0, g1, b0, b1, a0, a1⟩ := h1
  obtain ⟨r0', r1', g0', g1', b0', b1', a0', a1'⟩ := h2
  have t0 : 0 ≤ i * c2.alpha := mul_nonneg i0 a0'
  have t1 : i * c2.alpha ≤ 1 := by nlinarith
  have k : ∀ a b : ℝ, 0 ≤ a → a ≤ 1 → 0 ≤ b → b ≤ 1 →
      clamp01 (b * (c2.alpha * i) + (1 - c2.alpha * i) * a) = mix a b (i * c2.alpha) := by
    intro a b ha0 ha1 hb0 hb1
    have e : b * (c2.alpha * i) + (1 - c2.alpha * i) * a = mix a b (i * c2.alpha) := by
      unfold mix; ring
    rw [e]
    apply Exact.clamp01_id
    · unfold mix; nlinarith [mul_nonneg t0 hb0, mul_nonneg (sub_nonneg.2 t1) ha0]
    · unfold mix
      nlinarith [mul_le_mul_of_nonneg_left hb1 t0, mul_le_mul_of_nonneg_left ha1 (sub_nonneg.2 t1)]
  unfold modeFunction blend_normal Rgb.alpha_blend Rgb.new_with_alpha Col.with_alpha
  ex_simp
  rw [k _ _ r0 r1 r0' r1', k _ _ g0 g1 g0' g1', k _ _ b0 b1 b0' b1']
  congr 1
  rw [Exact.clamp01_id (le_min (by nlinarith) zero_le_one) (min_le_right _ _), min_comm,
    mul_comm c2.alpha]

/-- C37: normal mode at intensity 0 is the base, at intensity 1 with an opaque overlay the overlay. -/
theorem C37_normal_ends (c1 c2 : Col ℝ) (h1 : Spec.Unit c1) (h2 : Spec.Unit c2) :
    modeFunction .Normal c1 c2 0 = c1 ∧ (c2.alpha = 1 → modeFunction .Normal c1 c2 1 = c2) := by
  have a0 : 0 ≤ c1.alpha := h1.a0
  have a1 : c1.alpha ≤ 1 := h1.a1
  constructor
  · rw [C37_normal c1 c2 h1 h2 0 le_rfl zero_le_one]
    simp only [mix, zero_mul, add_zero, min_eq_right a1]
  · intro ho
    rw [C37_normal c1 c2 h1 h2 1 zero_le_one le_rfl]
    obtain ⟨x, y, z, a⟩ := c2
    simp only at ho
    subst ho
    simp only [mix, one_mul, add_sub_cancel, Col.mk.injEq, true_and]
    exact min_eq_left (by linarith)

/-- C37: the HSL modes move the base's lightness towards the darker / lighter of the two
lightnesses; hue, saturation and alpha are the base's. The overlay's alpha does not matter. -/
theorem C37_hsl_modes (c1 c2 : Col ℝ) (i : ℝ) :
    modeFunction .HslDarken c1 c2 i = to_rgb .hsl { to_hsl .rgb c1 with
      c2 := mix (to_hsl .rgb c1).c2 (min (to_hsl .rgb c1).c2 (to_hsl .rgb c2).c2) i } ∧
    modeFunction .HslLighten c1 c2 i = to_rgb .hsl { to_hsl .rgb c1 with
      c2 := mix (to_hsl .rgb c1).c2 (max (to_hsl .rgb c1).c2 (to_hsl .rgb c2).c2) i } := by
  constructor
  · unfold modeFunction blend_hsl_darken
    simp only [apply_intensity_eq, Exact.min]; rfl
  · unfold modeFunction blend_hsl_lighten
    simp only [apply_intensity_eq, Exact.max]; rfl

/-- C37: the LCh modes move the base's lightness, saturation, or saturation and hue towards the
overlay's; everything else, alpha included, is the base's. -/
theorem C37_lch_modes (c1 c2 : Col ℝ) (i : ℝ) :
    let b := to_lch .D65 .O2 .rgb c1
    let o := to_lch .D65 .O2 .rgb c2
    modeFunction .LchDarken c1 c2 i =
      to_rgb (.lch .D65 .O2) { b with c0 := mix b.c0 (min b.c0 o.c0) i } ∧
    modeFunction .LchLighten c1 c2 i =
      to_rgb (.lch .D65 .O2) { b with c0 := mix b.c0 (max b.c0 o.c0) i } ∧
    modeFunction .LchSaturation c1 c2 i =
      to_rgb (.lch .D65 .O2) { b with c1 := mix b.c1 o.c1 i } ∧
    modeFunction .LchColor c1 c2 i =
      to_rgb (.lch .D65 .O2) { b with c1 := mix b.c1 o.c1 i, c2 := mix b.c2 o.c2 i } ∧
    modeFunction .LchHue c1 c2 i =
      to_rgb (.lch .D65 .O2) { b with c2 := blended_hue b.c2 o.c2 i } := by
  intro b o
  refine ⟨?_, ?_, ?_, ?_, rfl⟩
  · unfold modeFunction blend_lch_darken
    simp only [apply_intensity_eq, Exact.min]; rfl
  · unfold modeFunction blend_lch_lighten
    simp only [apply_intensity_eq, Exact.max]; rfl
  · unfold modeFunction blend_lch_saturation
    simp only [apply_intensity_eq]; rfl
  · unfold modeFunction blend_lch_color
    simp only [apply_intensity_eq]; rfl

/-- C37: the hue mode turns the base's hue towards the overlay's the shorter way round: there is a
turn `d` of at most half a circle (`p`, the program's π) leading from one hue to the other up to full
circles, the result is the base's hue turned by the fraction `i` of it up to full circles, and it
lies in [-p, p] again. -/
theorem C37_hue_shorter_way (h1 h2 i p : ℝ) (hp : p = 3.14159265358979323846264338327950288)
    (a1 : -p ≤ h1) (b1 : h1 ≤ p) (a2 : -p ≤ h2) (b2 : h2 ≤ p) (i0 : 0 ≤ i) (i1 : i ≤ 1) :
    ∃ d : ℝ, |d| ≤ p ∧ (∃ k : ℤ, h1 + d = h2 + k * (2 * p)) ∧
      (∃ k : ℤ, blended_hue h1 h2 i = h1 + i * d + k * (2 * p)) ∧
      -p ≤ blended_hue h1 h2 i ∧ blended_hue h1 h2 i ≤ p := by
  have hpe : (PI : ℝ) = p := by unfold PI; rw [hp]; ex_simp
  have hp0 : 0 < p := by rw [hp]; norm_num
  unfold blended_hue
  simp only [apply_intensity_eq, hpe]
  ex_simp
  have conv : ∀ a b : ℝ, -p ≤ a → a ≤ p → -p ≤ b → b ≤ p → -p ≤ mix a b i ∧ mix a b i ≤ p := by
    intro a b ha hb ha' hb'
    unfold mix
    constructor <;> nlinarith
  by_cases hd : p < |h1 - h2|
  · rw [if_pos hd]
    by_cases hn : h1 < 0
    · rw [if_pos hn]
      have h12 : h1 + p < h2 := by
        rcases lt_abs.1 hd with h | h <;> linarith
      refine ⟨h2 - h1 - 2 * p, ?_, ⟨-1, by push_cast; ring⟩, ?_, ?_⟩
      · rw [abs_le]; constructor <;> linarith
      · by_cases hc : p < mix (h1 + 2 * p) h2 i
        · rw [if_pos hc]; exact ⟨0, by push_cast; unfold mix; ring⟩
        · rw [if_neg hc]; exact ⟨1, by push_cast; unfold mix; ring⟩
      · have hlo : h2 ≤ mix (h1 + 2 * p) h2 i ∧ mix (h1 + 2 * p) h2 i ≤ h1 + 2 * p := by
          unfold mix; constructor <;> nlinarith
        by_cases hc : p < mix (h1 + 2 * p) h2 i
        · rw [if_pos hc]; constructor <;> linarith
        · rw [if_neg hc]; constructor <;> linarith
    · rw [if_neg hn]
      have h12 : h2 < h1 - p := by
        rcases lt_abs.1 hd with h | h <;> linarith
      refine ⟨h2 - h1 + 2 * p, ?_, ⟨1, by push_cast; ring⟩, ?_, ?_⟩
      · rw [abs_le]; constructor <;> linarith
      · by_cases hc : p < mix h1 (h2 + 2 * p) i
        · rw [if_pos hc]; exact ⟨-1, by push_cast; unfold mix; ring⟩
        · rw [if_neg hc]; exact ⟨0, by push_cast; unfold mix; ring⟩
      · have hlo : h1 ≤ mix h1 (h2 + 2 * p) i ∧ mix h1 (h2 + 2 * p) i ≤ h2 + 2 * p := by
          unfold mix; constructor <;> nlinarith
        by_cases hc : p < mix h1 (h2 + 2 * p) i
        · rw [if_pos hc]; constructor <;> linarith
        · rw [if_neg hc]; constructor <;> linarith
  · rw [if_neg hd]
    exact ⟨h2 - h1, by rw [abs_sub_comm]; exact le_of_not_gt hd, ⟨0, by push_cast; ring⟩,
      ⟨0, by push_cast; unfold mix; ring⟩, conv _ _ a1 b1 a2 b2⟩

/-- C37: the hue mode keeps the base's hue at intensity 0 and takes the overlay's at intensity 1. -/
theorem C37_hue_ends (h1 h2 p : ℝ) (hp : p = 3.14159265358979323846264338327950288)
    (a1 : -p < h1) (b1 : h1 ≤ p) (a2 : -p < h2) (b2 : h2 ≤ p) :
    blended_hue h1 h2 0 = h1 ∧ blended_hue h1 h2 1 = h2 := by
  have hpe : (PI : ℝ) = p := by unfold PI; rw [hp]; ex_simp
  have m0 : ∀ a b : ℝ, mix a b 0 = a := fun a b => by unfold mix; ring
  have m1 : ∀ a b : ℝ, mix a b 1 = b := fun a b => by unfold mix; ring
  unfold blended_hue
  simp only [apply_intensity_eq, hpe]
  ex_simp
  simp only [m0, m1]
  by_cases hd : p < |h1 - h2|
  · rw [if_pos hd, if_pos hd]
    by_cases hn : h1 < 0
    · rw [if_pos hn, if_pos hn, if_pos (by linarith), if_neg (by linarith)]
      exact ⟨by ring, rfl⟩
    · rw [if_neg hn, if_neg hn, if_neg (by linarith), if_pos (by linarith)]
      exact ⟨rfl, by ring⟩
  · rw [if_neg hd, if_neg hd]
    exact ⟨rfl, rfl⟩

example : blended_hue (3 : ℝ) (-3) 1 = -3 :=
  (C37_hue_ends 3 (-3) _ rfl (by norm_num) (by norm_num) (by norm_num) (by norm_num)).2

/-- Hues 3 and -3 are 0.28 apart; half way is near π, not 0. -/
example : ∃ d : ℝ, |d| ≤ 3.14159265358979323846264338327950288 ∧
    (∃ k : ℤ, (3 : ℝ) + d = -3 + k * (2 * 3.14159265358979323846264338327950288)) := by
  obtain ⟨d, h, k, -⟩ := C37_hue_shorter_way 3 (-3) (1 / 2) _ rfl (by norm_num) (by norm_num)
    (by norm_num) (by norm_num) (by norm_num) (by norm_num)
  exact ⟨d, h, k⟩

/-- C37: at intensity 0 the modes that work in another colour space return the base converted there
and back, at intensity 1 they take the overlay's value (the darker, the lighter) completely. -/
theorem C37_converted_modes_ends (c1 c2 : Col ℝ) :
    let hb := to_hsl .rgb c1
    let ho := to_hsl .rgb c2
    let b := to_lch .D65 .O2 .rgb c1
    let o := to_lch .D65 .O2 .rgb c2
    (∀ op ∈ [BlendOp.HslDarken, .HslLighten], modeFunction op c1 c2 0 = to_rgb .hsl hb) ∧
    (∀ op ∈ [BlendOp.LchDarken, .LchLighten, .LchSaturation, .LchColor],
      modeFunction op c1 c2 0 = to_rgb (.lch .D65 .O2) b) ∧
    modeFunction .HslDarken c1 c2 1 = to_rgb .hsl { hb with c2 := min hb.c2 ho.c2 } ∧
    modeFunction .HslLighten c1 c2 1 = to_rgb .hsl { hb with c2 := max hb.c2 ho.c2 } ∧
    modeFunction .LchDarken c1 c2 1 = to_rgb (.lch .D65 .O2) { b with c0 := min b.c0 o.c0 } ∧
    modeFunction .LchLighten c1 c2 1 = to_rgb (.lch .D65 .O2) { b with c0 := max b.c0 o.c0 } ∧
    modeFunction .LchSaturation c1 c2 1 = to_rgb (.lch .D65 .O2) { b with c1 := o.c1 } ∧
    modeFunction .LchColor c1 c2 1 = to_rgb (.lch .D65 .O2) { b with c1 := o.c1, c2 := o.c2 } := by
  intro hb ho b o
  have m0 : ∀ a b : ℝ, mix a b 0 = a := fun a b => by unfold mix; ring
  have m1 : ∀ a b : ℝ, mix a b 1 = b := fun a b => by unfold mix; ring
  have H := C37_hsl_modes c1 c2
  have L := C37_lch_modes c1 c2
  simp only [] at L
  refine ⟨?_, ?_, ?_, ?_, ?_, ?_, ?_, ?_⟩
  · intro op hop
    simp only [List.mem_cons, List.not_mem_nil, or_false] at hop
    rcases hop with rfl | rfl
    · rw [(H 0).1, m0]
    · rw [(H 0).2, m0]
  · intro op hop
    simp only [List.mem_cons, List.not_mem_nil, or_false] at hop
    rcases hop with rfl | rfl | rfl | rfl
    · rw [(L 0).1, m0]
    · rw [(L 0).2.1, m0]
    · rw [(L 0).2.2.1, m0]
    · rw [(L 0).2.2.2.1, m0, m0]
  · rw [(H 1).1, m1]
  · rw [(H 1).2, m1]
  · rw [(L 1).1, m1]
  · rw [(L 1).2.1, m1]
  · rw [(L 1).2.2.1, m1]
  · rw [(L 1).2.2.2.1, m1, m1]

/-- C37: for colours in range the HSL modes at intensity 0 give a colour equal to the base. -/
theorem C37_hsl_intensity_zero (c1 c2 : Col ℝ) (h1 : Spec.Unit c1) :
    Col.eq (modeFunction .HslDarken c1 c2 0) c1 = true ∧
    Col.eq (modeFunction .HslLighten c1 c2 0) c1 = true := by
  have h := (C37_converted_modes_ends c1 c2).1
  rw [h _ (by simp), h _ (by simp)]
  exact ⟨C28_hsl_round_trip c1 h1, C28_hsl_round_trip c1 h1⟩

/-- The overlay's alpha replaces the base's even at intensity 0: an opaque red base under a fully
transparent overlay becomes fully transparent. -/
example : ∃ c1 c2 : Col ℝ, Spec.Unit c1 ∧ Spec.Unit c2 ∧ c1.alpha = 1 ∧
    (modeFunction .Darken c1 c2 0).alpha = 0 := by
  have h1 : Spec.Unit (⟨1, 0, 0, 1⟩ : Col ℝ) := by constructor <;> norm_num
  have h2 : Spec.Unit (⟨0, 0, 0, 0⟩ : Col ℝ) := by constructor <;> norm_num
  refine ⟨_, _, h1, h2, rfl, ?_⟩
  rw [C37_intensity_zero .Darken _ rfl _ _ h1 h2]

end

/-- C37: every mode gives colour channels that are in [0, 1] or not a number, for all inputs and
intensities, in floating point as in exact arithmetic. -/
theorem C37_range {F : Type} [Scalar F] [LawfulScalar F] (op : BlendOp) (c1 c2 : Col F) (i : F) :
    Spec.ColourInRange (modeFunction op c1 c2 i) := by
  have key : ∀ a b c d : F, Spec.ColourInRange (Rgb.new_with_alpha a b c d) := fun a b c d =>
    ⟨clamp01_range _, clamp01_range _, clamp01_range _⟩
  have hsl : ∀ c : Col F, Spec.ColourInRange (Hsl.to_rgb c) := by
    intro c; unfold Hsl.to_rgb; simp only []; split <;> exact key _ _ _ _
  have xyz : ∀ c : Col F, Spec.ColourInRange (Xyz.to_rgb c) := fun c =>
    ⟨clamp01_range _, clamp01_range _, clamp01_range _⟩
  cases op
  · exact key _ _ _ _
  · exact key _ _ _ _
  · exact key _ _ _ _
  · exact key _ _ _ _
  · exact key _ _ _ _
  · exact hsl _
  · exact hsl _
  · exact xyz _
  · exact xyz _
  · exact xyz _
  · exact xyz _
  · exact xyz _

end D10
