import Verif.Lemmas.Color

/-!
# Colours stay in range, tonal operations keep alpha (C23, C24, C25)

The theorems about a type `F` with `LawfulScalar F` hold for `F32` (IEEE floats, whatever the
library functions return) and for exact numbers.
-/

namespace D10
open Scalar (isNan)
open LawfulScalar

/-! ## Specification -/

/-- What clamping to [0, 1] means for a float, without reference to the code: NaN stays NaN,
infinities and finite values outside go to the nearer end, values inside stay as they are. -/
def Spec.clampUnit (x : F32) : F32 :=
  match x with
  | .nan => .nan
  | .inf true => .ofRat b32 false 0
  | .inf false => .ofRat b32 false 1
  | x => if x.val < 0 then .ofRat b32 false 0 else if 1 < x.val then .ofRat b32 false 1 else x

/-- A channel is in range: not a number, or between 0 and 1. -/
def Spec.InRange {F : Type} [Scalar F] (x : F) : Prop :=
  isNan x = true ∨ ((lit 0 <=. x) = true ∧ (x <=. lit 1) = true)

/-- All three colour channels are in range (alpha is not looked at). -/
def Spec.ColourInRange {F : Type} [Scalar F] (c : Col F) : Prop :=
  Spec.InRange c.c0 ∧ Spec.InRange c.c1 ∧ Spec.InRange c.c2

/-- `InRange` for a float says what it should. -/
theorem Spec.inRange_f32 [Libm b32] (x : F32) :
    Spec.InRange x ↔ x = .nan ∨ (x.fin = true ∧ 0 ≤ x.val ∧ x.val ≤ 1) := by
  have r1 := FP.int_finite (f := b32) 1 (by decide)
  have r0 := FP.int_finite (f := b32) 0 (by decide)
  have l1 := FP.ofRat_rep (f := b32) (s := false) r1.1 r1.2
  have l0 := FP.ofRat_rep (f := b32) (s := false) r0.1 r0.2
  push_cast at l1 l0
  unfold Spec.InRange
  rw [FP.isNan_iff]
  apply or_congr Iff.rfl
  rcases FP.kinds x with rfl | ⟨s, rfl⟩ | hx
  · rw [FP.le_nan_right]; simp [FP.fin]
  · show (FP.ofRat b32 false 0 <=. FP.inf s) = true ∧ (FP.inf s <=. FP.ofRat b32 false 1) = true ↔ _
    rw [FP.le_fin_inf l0.1, FP.le_inf_fin l1.1]
    cases s <;> simp [FP.fin]
  · show (FP.ofRat b32 false 0 <=. x) = true ∧ (x <=. FP.ofRat b32 false 1) = true ↔ _
    rw [FP.le_fin l0.1 hx, FP.le_fin hx l1.1, l0.2, l1.2]
    simp [hx]

/-- `InRange` for an exact number says what it should. -/
theorem Spec.inRange_real [Junk] (x : ℝ) : Spec.InRange x ↔ 0 ≤ x ∧ x ≤ 1 := by
  unfold Spec.InRange
  rw [Exact.isNan, Exact.le, Exact.le, Exact.lit, Exact.lit]; simp

/-! ## C23: constructors -/

theorem clamp01_eq_spec [Libm b32] (x : F32) : clamp01 x = Spec.clampUnit x := by
  have r1 := FP.int_finite (f := b32) 1 (by decide)
  have r0 := FP.int_finite (f := b32) 0 (by decide)
  have l1 := FP.ofRat_rep (f := b32) (s := false) r1.1 r1.2
  have l0 := FP.ofRat_rep (f := b32) (s := false) r0.1 r0.2
  push_cast at l1 l0
  have key : x.fin = true → clamp01 x =
      if x.val < 0 then FP.ofRat b32 false 0 else if 1 < x.val then FP.ofRat b32 false 1 else x := by
    intro hx
    unfold clamp01 Scalar.clamp
    show (if FP.lt x (FP.ofRat b32 false 0) = true then FP.ofRat b32 false 0
      else if FP.lt (FP.ofRat b32 false 1) x = true then FP.ofRat b32 false 1 else x) = _
    rw [FP.lt_fin hx l0.1, FP.lt_fin l1.1 hx, l0.2, l1.2]
    simp
  cases x with
  | nan => exact clamp01_nan ((FP.isNan_iff _).2 rfl)
  | inf s =>
    unfold clamp01 Scalar.clamp
    show (if FP.lt (FP.inf s) (FP.ofRat b32 false 0) = true then FP.ofRat b32 false 0
      else if FP.lt (FP.ofRat b32 false 1) (FP.inf s) = true then FP.ofRat b32 false 1
      else FP.inf s) = _
    rw [FP.lt_inf_fin l0.1, FP.lt_fin_inf l1.1]
    cases s <;> rfl
  | zero s => exact key rfl
  | num q h => exact key rfl

/-- C23: every constructor of Rgb and Srgb clamps each channel, for every float value. -/
theorem C23_constructors [Libm b32] (r g b a : F32) (fn : Nat → F32) :
    Rgb.new_with_alpha r g b a =
      ⟨Spec.clampUnit r, Spec.clampUnit g, Spec.clampUnit b, Spec.clampUnit a⟩ ∧
    Rgb.new r g b = ⟨Spec.clampUnit r, Spec.clampUnit g, Spec.clampUnit b, .ofRat b32 false 1⟩ ∧
    Srgb.new_with_alpha r g b a =
      ⟨Spec.clampUnit r, Spec.clampUnit g, Spec.clampUnit b, Spec.clampUnit a⟩ ∧
    Srgb.new r g b = ⟨Spec.clampUnit r, Spec.clampUnit g, Spec.clampUnit b, .ofRat b32 false 1⟩ ∧
    Srgb.new_from_fn fn = ⟨Spec.clampUnit (fn 0), Spec.clampUnit (fn 1), Spec.clampUnit (fn 2),
      Spec.clampUnit (fn 3)⟩ := by
  simp only [← clamp01_eq_spec]
  exact ⟨rfl, rfl, rfl, rfl, rfl⟩

/-- C23: the clamped value is NaN exactly for NaN and otherwise finite and in [0, 1]. -/
theorem C23_range (x : F32) :
    (x = .nan → Spec.clampUnit x = .nan) ∧
    (x ≠ .nan → (Spec.clampUnit x).fin = true ∧ 0 ≤ (Spec.clampUnit x).val ∧
      (Spec.clampUnit x).val ≤ 1) := by
  let _ := Libm.trivial b32
  refine ⟨fun h => by subst h; rfl, fun h => ?_⟩
  have h1 := clamp01_range x
  rw [clamp01_eq_spec] at h1
  have := (Spec.inRange_f32 (Spec.clampUnit x)).1 h1
  rcases this with h2 | h2
  · exfalso
    revert h2
    cases x with
    | nan => exact absurd rfl h
    | inf s => cases s <;> simp [Spec.clampUnit, FP.ofRat_not_nan]
    | zero s => simp [Spec.clampUnit, FP.val, show ¬ ((1:ℚ) < 0) by norm_num]
    | num q hq =>
      simp only [Spec.clampUnit]
      split
      · exact FP.ofRat_not_nan
      · split
        · exact FP.ofRat_not_nan
        · simp
  · exact h2

/-- C23: values in range are returned bit-for-bit (also -0.0). -/
theorem C23_identity (x : F32) (hf : x.fin = true) (h0 : 0 ≤ x.val) (h1 : x.val ≤ 1) :
    Spec.clampUnit x = x := by
  unfold Spec.clampUnit
  split
  · rfl
  · simp [FP.fin] at hf
  · simp [FP.fin] at hf
  · rw [if_neg (by linarith), if_neg (by linarith)]

example : ∃ x : F32, x.fin = true ∧ 0 ≤ x.val ∧ x.val ≤ 1 ∧ Spec.clampUnit x = x :=
  ⟨.ofRat b32 false (1 / 3), by decide +kernel, by decide +kernel, by decide +kernel,
    by decide +kernel⟩

/-- C23 in exact arithmetic. -/
theorem C23_exact [Junk] (r g b a : ℝ) :
    Rgb.new_with_alpha r g b a = ⟨max 0 (min 1 r), max 0 (min 1 g), max 0 (min 1 b), max 0 (min 1 a)⟩ ∧
    Rgb.new r g b = ⟨max 0 (min 1 r), max 0 (min 1 g), max 0 (min 1 b), 1⟩ ∧
    Srgb.new_with_alpha r g b a = ⟨max 0 (min 1 r), max 0 (min 1 g), max 0 (min 1 b), max 0 (min 1 a)⟩ ∧
    Srgb.new r g b = ⟨max 0 (min 1 r), max 0 (min 1 g), max 0 (min 1 b), 1⟩ := by
  have h : ∀ x : ℝ, clamp01 x = max 0 (min 1 x) := by
    intro x
    unfold clamp01
    rw [Exact.clamp, Exact.lit, Exact.lit]
    · simp
    · rw [Exact.lit, Exact.lit]; norm_num
  have h1 : (lit 1 : ℝ) = 1 := by rw [Exact.lit]; norm_num
  simp only [Rgb.new_with_alpha, Rgb.new, Srgb.new_with_alpha, Srgb.new, h, h1, and_self]

/-- C23: the constructors of the other colour types (HSL, HSV, YUV, XYZ, Lab, LCh) keep their
arguments as they are, each in its place, whatever the numbers are. -/
theorem C23_other_constructors {F : Type} [Scalar F] (s : Space) (hr : s ≠ .rgb) (hs : s ≠ .srgb)
    (a b c alpha : F) (fn : Nat → F) :
    (new_with_alpha s a b c alpha).data = [a, b, c, alpha] ∧
    (Col.opaque a b c).data = [a, b, c, lit 1] ∧
    (Col.new_from_fn fn).data = (List.range 4).map fn := by
  refine ⟨?_, rfl, rfl⟩
  cases s <;> first | exact absurd rfl hr | exact absurd rfl hs | rfl

example : (Space.lab .D65 .O2) ≠ .rgb ∧ (Space.lab .D65 .O2) ≠ .srgb := by decide

/-! ## C24: alpha -/

section
variable {F : Type} [Scalar F]

/-- C24: channel-wise tonal operations leave alpha alone, for every colour and parameter. -/
theorem C24_channel_maps_keep_alpha (c : Col F) (p q r : F) (i : Intensity) :
    (Rgb.to_gray c).alpha = c.alpha ∧
    (Rgb.to_gray_with_intensity c i).alpha = c.alpha ∧
    (Rgb.invert c).alpha = c.alpha ∧
    (Rgb.with_gamma c p).alpha = c.alpha ∧
    (Rgb.with_gamma_opt c p).alpha = c.alpha ∧
    (Rgb.with_level c p q r).alpha = c.alpha ∧
    (Rgb.with_brightness c p).alpha = c.alpha ∧
    (Rgb.with_contrast c p).alpha = c.alpha ∧
    (Rgb.with_brightness_contrast c p q).alpha = c.alpha :=
  ⟨rfl, rfl, rfl, rfl, rfl, rfl, rfl, rfl, rfl⟩

/-- Conversion to HSL keeps alpha. -/
theorem to_hsl_alpha (c : Col F) : (Rgb.to_hsl c).alpha = c.alpha := by
  unfold Rgb.to_hsl; simp only; split <;> rfl

/-- Conversion from HSL clamps alpha. -/
theorem hsl_to_rgb_alpha (c : Col F) : (Hsl.to_rgb c).alpha = clamp01 c.alpha := by
  unfold Hsl.to_rgb; simp only; split <;> rfl

/-- C24: the operations that go through HSL (and sepia) keep an alpha in [0, 1] as it is. -/
theorem C24_hsl_operations_keep_alpha [LawfulScalar F] (c : Col F) (p q r : F)
    (h0 : (lit 0 <=. c.alpha) = true) (h1 : (c.alpha <=. lit 1) = true) :
    (Rgb.with_saturation c p).alpha = c.alpha ∧
    (Rgb.stretch_saturation c p).alpha = c.alpha ∧
    (Rgb.with_gamma_saturation c p).alpha = c.alpha ∧
    (Rgb.with_lightness c p).alpha = c.alpha ∧
    (Rgb.with_hue_rotate c p).alpha = c.alpha ∧
    (Rgb.modulate c p q r).alpha = c.alpha ∧
    (Rgb.with_sepia c).alpha = c.alpha := by
  have := clamp01_id h0 h1
  refine ⟨?_, ?_, ?_, ?_, ?_, ?_, ?_⟩
  · exact (hsl_to_rgb_alpha _).trans this
  · exact (hsl_to_rgb_alpha _).trans this
  · exact (hsl_to_rgb_alpha _).trans this
  · exact (hsl_to_rgb_alpha _).trans this
  · exact (hsl_to_rgb_alpha _).trans this
  · refine (hsl_to_rgb_alpha _).trans ?_
    show clamp01 (Rgb.to_hsl c).alpha = _
    rw [to_hsl_alpha]; exact this
  · exact this

/-- C24: vibrance and difference lose alpha: the result is opaque whatever the input was. -/
theorem C24_vibrance_difference_opaque [LawfulScalar F] (c d : Col F) (p : F) :
    (Rgb.with_vibrance c p).alpha = lit 1 ∧ (Rgb.difference c d).alpha = lit 1 := by
  refine ⟨(hsl_to_rgb_alpha _).trans ?_, rfl⟩
  exact clamp01_id (le_of_lit (by norm_num)) (le_of_lit (by norm_num))

theorem to_rgb_alpha (sp : Space) (c : Col F) (h : clamp01 c.alpha = c.alpha) :
    (to_rgb sp c).alpha = c.alpha := by
  cases sp with
  | rgb => rfl
  | srgb => exact h
  | hsl => exact (hsl_to_rgb_alpha c).trans h
  | hsv =>
    show (Hsv.to_rgb c).alpha = _
    unfold Hsv.to_rgb
    simp only
    split
    · rfl
    · split <;> exact h
  | yuv => exact h
  | xyz => rfl
  | lab i o => rfl
  | lch i o => rfl

/-- C24: every conversion between colour types keeps an alpha in [0, 1] as it is. -/
theorem C24_conversions_keep_alpha [LawfulScalar F] (src dst : Space) (c : Col F)
    (h0 : (lit 0 <=. c.alpha) = true) (h1 : (c.alpha <=. lit 1) = true) :
    (convert src dst c).alpha = c.alpha := by
  have hc := clamp01_id h0 h1
  have hr := to_rgb_alpha src c hc
  have hx : (to_xyz src c).alpha = c.alpha := by
    cases src <;> first | rfl | exact hr
  have hs : (to_srgb src c).alpha = c.alpha := by
    cases src <;> first
      | rfl
      | (show clamp01 (to_rgb _ c).alpha = _; rw [hr]; exact hc)
  cases dst with
  | rgb => exact hr
  | srgb => exact hs
  | hsl => cases src <;> first | rfl | (refine (to_hsl_alpha _).trans ?_; exact hr)
  | hsv =>
    have : ∀ c : Col F, (Rgb.to_hsv c).alpha = c.alpha := by
      intro c; unfold Rgb.to_hsv; simp only; split <;> rfl
    cases src <;> first | rfl | (refine (this _).trans ?_; exact hr)
  | yuv => cases src <;> first | rfl | exact hs
  | xyz => exact hx
  | lab i o => exact hx
  | lch i o => exact hx

end

/-- Non-vacuity of C24: a half transparent float colour meets the hypotheses, and vibrance changes
its alpha. -/
example [Libm b32] (p : F32) : ∃ c : Col F32,
    ((lit 0 : F32) <=. c.alpha) = true ∧ (c.alpha <=. (lit 1 : F32)) = true ∧
    (Rgb.with_vibrance c p).alpha ≠ c.alpha :=
  ⟨⟨lit 1, lit (1/2), lit 0, lit (1/2)⟩, le_of_lit (by norm_num), le_of_lit (by norm_num), by
    rw [(C24_vibrance_difference_opaque (F := F32) _ Rgb.NONE p).1]
    intro h
    exact absurd (congrArg FP.val h) (by
      show (FP.ofRat b32 false 1).val ≠ (FP.ofRat b32 false (1/2)).val
      decide +kernel)⟩

/-! ## C25: range -/

section
variable {F : Type} [Scalar F] [LawfulScalar F]

theorem map_channels_inRange (c : Col F) (f : F → F) :
    Spec.ColourInRange (Rgb.map_channels c f) :=
  ⟨clamp01_range _, clamp01_range _, clamp01_range _⟩

theorem new_with_alpha_inRange (r g b a : F) : Spec.ColourInRange (Rgb.new_with_alpha r g b a) :=
  ⟨clamp01_range _, clamp01_range _, clamp01_range _⟩

theorem hsl_to_rgb_inRange (c : Col F) : Spec.ColourInRange (Hsl.to_rgb c) := by
  unfold Hsl.to_rgb; simp only; split <;> exact new_with_alpha_inRange _ _ _ _

/-- C25: whatever the colour and the parameters are - out of range, infinite or NaN - the colour
channels of the result are in [0, 1] or NaN. -/
theorem C25_tonal_operations_in_range (c d : Col F) (p q r : F) :
    Spec.ColourInRange (Rgb.with_gamma c p) ∧
    Spec.ColourInRange (Rgb.with_gamma_opt c p) ∧
    Spec.ColourInRange (Rgb.with_level c p q r) ∧
    Spec.ColourInRange (Rgb.with_brightness c p) ∧
    Spec.ColourInRange (Rgb.with_contrast c p) ∧
    Spec.ColourInRange (Rgb.with_brightness_contrast c p q) ∧
    Spec.ColourInRange (Rgb.with_saturation c p) ∧
    Spec.ColourInRange (Rgb.stretch_saturation c p) ∧
    Spec.ColourInRange (Rgb.with_gamma_saturation c p) ∧
    Spec.ColourInRange (Rgb.with_lightness c p) ∧
    Spec.ColourInRange (Rgb.with_hue_rotate c p) ∧
    Spec.ColourInRange (Rgb.modulate c p q r) ∧
    Spec.ColourInRange (Rgb.with_vibrance c p) ∧
    Spec.ColourInRange (Rgb.with_sepia c) ∧
    Spec.ColourInRange (Rgb.difference c d) ∧
    Spec.ColourInRange (Rgb.alpha_blend c d) ∧
    Spec.InRange (Rgb.alpha_blend c d).alpha :=
  ⟨map_channels_inRange _ _, map_channels_inRange _ _, map_channels_inRange _ _,
    map_channels_inRange _ _, map_channels_inRange _ _, map_channels_inRange _ _,
    hsl_to_rgb_inRange _, hsl_to_rgb_inRange _, hsl_to_rgb_inRange _, hsl_to_rgb_inRange _,
    hsl_to_rgb_inRange _, hsl_to_rgb_inRange _, hsl_to_rgb_inRange _,
    new_with_alpha_inRange _ _ _ _,
    ⟨clamp01_range _, clamp01_range _, clamp01_range _⟩,
    new_with_alpha_inRange _ _ _ _, clamp01_range _⟩

/-- C25: converting any colour of any space to linear RGB or sRGB gives channels in range; the only
exceptions are a colour that is RGB (or sRGB) already, and HSV colours that are gray. -/
theorem C25_conversions_in_range (s : Space) (c : Col F) :
    (s ≠ .rgb → (s = .hsv → (c.c1 <=. lit 0) = false) → Spec.ColourInRange (to_rgb s c)) ∧
    (s ≠ .srgb → Spec.ColourInRange (to_srgb s c)) := by
  refine ⟨fun h1 h2 => ?_, fun h => ?_⟩
  · cases s with
    | rgb => exact absurd rfl h1
    | srgb => exact new_with_alpha_inRange _ _ _ _
    | hsl => exact hsl_to_rgb_inRange _
    | hsv =>
      have := h2 rfl
      show Spec.ColourInRange (Hsv.to_rgb c)
      unfold Hsv.to_rgb
      simp only [this, Bool.false_eq_true, if_false]
      split <;> exact new_with_alpha_inRange _ _ _ _
    | yuv => exact new_with_alpha_inRange _ _ _ _
    | xyz => exact ⟨clamp01_range _, clamp01_range _, clamp01_range _⟩
    | lab i o => exact ⟨clamp01_range _, clamp01_range _, clamp01_range _⟩
    | lch i o => exact ⟨clamp01_range _, clamp01_range _, clamp01_range _⟩
  · cases s <;> first | exact absurd rfl h | exact new_with_alpha_inRange _ _ _ _

end

/-- C25 for the program's own numbers. -/
example [Libm b32] (c d : Col F32) (p q r : F32) :
    Spec.ColourInRange (Rgb.with_hue_rotate c p) ∧ Spec.ColourInRange (Rgb.with_level c p q r) :=
  ⟨(C25_tonal_operations_in_range c d p q r).2.2.2.2.2.2.2.2.2.2.1,
   (C25_tonal_operations_in_range c d p q r).2.2.1⟩

/-- The exception is real: a gray HSV colour with value 2 becomes an RGB colour with channels 2. -/
theorem C25_gray_hsv_not_clamped [Libm b32] :
    ∃ c : Col F32, ¬ Spec.ColourInRange (to_rgb .hsv c) := by
  refine ⟨⟨lit 0, lit 0, lit 2, lit 1⟩, fun h => ?_⟩
  have h1 := (Spec.inRange_f32 _).1 h.1
  have : (to_rgb .hsv (⟨lit 0, lit 0, lit 2, lit 1⟩ : Col F32)).c0 = FP.ofRat b32 false 2 := by
    show (Hsv.to_rgb _).c0 = _
    unfold Hsv.to_rgb
    simp only [le_of_lit (F := F32) (le_refl (0 : ℚ)), if_true]
    rfl
  rw [this] at h1
  rcases h1 with h1 | h1
  · exact FP.ofRat_not_nan h1
  · exact absurd h1.2.2 (by decide +kernel)

end D10
