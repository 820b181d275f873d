import Verif.Lemmas.PixelOps
import Verif.Props.ColorRange
import Verif.Lemmas.F32
import Verif.Lemmas.Hsl

/-!
# Noise (C41, C42)

The random generator is an arbitrary state machine `g` with state `σ`, so the theorems hold for
every stream of random numbers, seed and length.
-/

namespace D10
open Spec
open Scalar (isNan)

section
variable {F σ : Type} [Scalar F]

theorem salt_step (g : Rng σ F) (t : F) (c : Col F) (s : σ) :
    salt_n_pepper g c t s = .ok (saltPepper g t s c) := by
  unfold salt_n_pepper saltPepper
  simp only [bind, StateT.bind, modifyGetThe, MonadStateOf.modifyGet, StateT.modifyGet,
    pure, Except.bind, Except.pure]
  split
  · rfl
  · split <;> rfl

theorem rgb_step (g : Rng σ F) (t : F) (c : Col F) (s : σ) :
    rgb_noise_for_pixel g c t s = .ok (rgbSpeck g t s c) := by
  unfold rgb_noise_for_pixel rgbSpeck
  show (if (g.unit s).1 <. t then ((modifyGetThe σ g.three : StateT σ R Nat) >>= _) else pure c :
    StateT σ R (Col F)) (g.unit s).2 = _
  by_cases hc : ((g.unit s).1 <. t) = true
  · rw [if_pos hc]
    simp only [hc, if_true]
    show (match (g.three (g.unit s).2).1 with
      | 0 => (pure { c with c0 := lit 1 } : StateT σ R (Col F))
      | 1 => pure { c with c1 := lit 1 }
      | _ => pure { c with c2 := lit 1 }) (g.three (g.unit s).2).2 = _
    generalize g.three (g.unit s).2 = d
    obtain ⟨k, s'⟩ := d
    match k with
    | 0 => rfl
    | 1 => rfl
    | k + 2 => rfl
  · rw [if_neg hc]
    simp only [hc, if_false, Bool.false_eq_true]
    rfl

theorem noise_step (draw : σ → F × σ) (space : Space) (alpha : F) (c : Col F) (s : σ) :
    try_map_color_channels space c (noiseChannel draw alpha) s = .ok (noisy draw space alpha s c) := by
  rfl

/-- C41: salt-and-pepper noise visits the pixels in row-major order, draws once for each, and makes
it black, white or leaves it alone. -/
theorem C41_salt_n_pepper_noise (g : Rng σ F) {b : PixelBuffer (Col F)} {w h px}
    (sh : Shows b w h px) (t : F) (s : σ) :
    salt_n_pepper_noise g b t s =
      .ok (⟨w, h, (visit (saltPepper g t) s (rows w h px)).1⟩,
        (visit (saltPepper g t) s (rows w h px)).2) :=
  map_colorsM_visit sh _ _ (salt_step g t) s

/-- C41: RGB noise visits the pixels in row-major order and leaves each alone or sets one of its
colour channels to 1. -/
theorem C41_rgb_noise (g : Rng σ F) {b : PixelBuffer (Col F)} {w h px}
    (sh : Shows b w h px) (t : F) (s : σ) :
    rgb_noise g b t s =
      .ok (⟨w, h, (visit (rgbSpeck g t) s (rows w h px)).1⟩,
        (visit (rgbSpeck g t) s (rows w h px)).2) :=
  map_colorsM_visit sh _ _ (rgb_step g t) s

/-- C41, C42: the in-place functions compute the same image with the same draws. -/
theorem C41_in_place (g : Rng σ F) (b : PixelBuffer (Col F)) (space : Space) (t : F) :
    add_salt_n_pepper_noise g b t = salt_n_pepper_noise g b t ∧
    add_rgb_noise g b t = rgb_noise g b t ∧
    add_random_noise g space b t = random_noise g space b t ∧
    add_gaussian_noise g space b t = gaussian_noise g space b t :=
  ⟨C07_mod_eq_map _ _, C07_mod_eq_map _ _, C07_mod_eq_map _ _, C07_mod_eq_map _ _⟩

instance : Inhabited (Col F) := ⟨Rgb.NONE⟩

/-- C41: whatever the random numbers, the size is kept and every pixel is unchanged, black or white. -/
theorem C41_salt_n_pepper_pixels (g : Rng σ F) {b : PixelBuffer (Col F)} {w h px}
    (sh : Shows b w h px) (t : F) (s : σ) :
    ∃ b' s' px', salt_n_pepper_noise g b t s = .ok (b', s') ∧ Shows b' w h px' ∧
      ∀ x y, x < w → y < h → px' x y = px x y ∨ px' x y = ⟨lit 0, lit 0, lit 0, lit 1⟩ ∨
        px' x y = ⟨lit 1, lit 1, lit 1, lit 1⟩ := by
  obtain ⟨px', hs, hp⟩ := visit_shows sh.size px (saltPepper g t) s
  refine ⟨_, _, px', C41_salt_n_pepper_noise g sh t s, hs, ?_⟩
  intro x y hx hy
  obtain ⟨s', e⟩ := hp x y hx hy
  rw [e]
  unfold saltPepper
  simp only []
  split
  · exact .inr (.inl rfl)
  · split
    · exact .inr (.inr rfl)
    · exact .inl rfl

/-- C41: whatever the random numbers, the size is kept and every pixel is unchanged or differs from
the original in exactly one colour channel, which is 1. -/
theorem C41_rgb_noise_pixels (g : Rng σ F) {b : PixelBuffer (Col F)} {w h px}
    (sh : Shows b w h px) (t : F) (s : σ) :
    ∃ b' s' px', rgb_noise g b t s = .ok (b', s') ∧ Shows b' w h px' ∧
      ∀ x y, x < w → y < h → px' x y = px x y ∨ px' x y = { px x y with c0 := lit 1 } ∨
        px' x y = { px x y with c1 := lit 1 } ∨ px' x y = { px x y with c2 := lit 1 } := by
  obtain ⟨px', hs, hp⟩ := visit_shows sh.size px (rgbSpeck g t) s
  refine ⟨_, _, px', C41_rgb_noise g sh t s, hs, ?_⟩
  intro x y hx hy
  obtain ⟨s', e⟩ := hp x y hx hy
  rw [e]
  unfold rgbSpeck
  simp only []
  split
  · split
    · exact .inr (.inl rfl)
    · split
      · exact .inr (.inr (.inl rfl))
      · exact .inr (.inr (.inr rfl))
  · exact .inl rfl

/-- A generator that always draws 0, 1/2 or 1, in turn. -/
def Spec.exampleRng : Rng Nat F where
  unit s := (lit (((s % 3 : Nat) : ℚ) / 2), s + 1)
  symmetric s := (lit ((s % 3 : Nat) - 1 : ℚ), s + 1)
  normal s := (lit ((s % 5 : Nat) : ℚ), s + 1)
  three s := (s % 3, s + 1)

end

/-- All three outcomes occur: with threshold 1/4 and draws 0, 1/2, 1 the pixels of a 3 x 1 image
become black, stay, become white. -/
example [Junk] (c : Col ℝ) :
    salt_n_pepper_noise exampleRng ⟨3, 1, [c, c, c]⟩ (1 / 4 : ℝ) 0 =
      .ok (⟨3, 1, [⟨0, 0, 0, 1⟩, c, ⟨1, 1, 1, 1⟩]⟩, 3) := by
  have sh : Shows (⟨3, 1, [c, c, c]⟩ : PixelBuffer (Col ℝ)) 3 1 fun _ _ => c :=
    ⟨rfl, rfl, by unfold ValidSize; omega, rfl⟩
  rw [C41_salt_n_pepper_noise exampleRng sh]
  have e : rows 3 1 (fun _ _ => c) = [c, c, c] := rfl
  rw [e]
  have d0 : ((lit (((0 % 3 : Nat) : ℚ) / 2) : ℝ) <. (1 / 4 : ℝ)) = true := by
    rw [Exact.lt]; ex_simp; norm_num
  simp only [visit, saltPepper, exampleRng]
  ex_simp
  norm_num

/-! ### Threshold 0 -/

/-- Nothing happens if no draw is below the threshold or above one minus the threshold. -/
theorem visit_id {α σ : Type} (f : σ → α → α × σ) (l : List α) (hf : ∀ s, ∀ a ∈ l, (f s a).1 = a)
    (s : σ) : (visit f s l).1 = l := by
  induction l generalizing s with
  | nil => rfl
  | cons a as ih =>
    show (f s a).1 :: (visit f (f s a).2 as).1 = _
    rw [hf s a (by simp), ih (fun s b hb => hf s b (by simp [hb]))]

theorem shows_visit_id {α σ : Type} {b : PixelBuffer α} {w h px} (sh : Shows b w h px)
    (f : σ → α → α × σ) (hf : ∀ s, ∀ x y, x < w → y < h → (f s (px x y)).1 = px x y) (s : σ) :
    (⟨w, h, (visit f s (rows w h px)).1⟩ : PixelBuffer α) = b := by
  have : (visit f s (rows w h px)).1 = rows w h px := by
    apply visit_id
    intro s a ha
    obtain ⟨y, hy, hx'⟩ := List.mem_flatMap.1 ha
    obtain ⟨x, hx, rfl⟩ := List.mem_map.1 hx'
    exact hf s x y (List.mem_range.1 hx) (List.mem_range.1 hy)
  rw [this]
  have s' : Shows (⟨w, h, rows w h px⟩ : PixelBuffer α) w h px := ⟨rfl, rfl, sh.size, rfl⟩
  exact s'.eq sh

/-- C41: with threshold 0 (of either sign) nothing is changed, for every generator whose draws lie
in [0, 1] as promised, in the program's arithmetic. -/
theorem C41_threshold_zero [Libm b32] {σ : Type} (g : Rng σ F32)
    (hg : ∀ s, (g.unit s).1.fin = true ∧ 0 ≤ (g.unit s).1.val ∧ (g.unit s).1.val ≤ 1)
    {b : PixelBuffer (Col F32)} {w h px} (sh : Shows b w h px) (sg : Bool) (s : σ) :
    (∃ s', salt_n_pepper_noise g b (FP.zero sg) s = .ok (b, s')) ∧
    (∃ s', rgb_noise g b (FP.zero sg) s = .ok (b, s')) := by
  have lt0 : ∀ s, ((g.unit s).1 <. (FP.zero sg : F32)) = false := by
    intro s
    rw [Bool.eq_false_iff]
    intro h
    have h : FP.lt (g.unit s).1 (FP.zero sg : F32) = true := h
    rw [FP.lt_fin (hg s).1 rfl] at h
    exact absurd (of_decide_eq_true h) (not_lt.2 (hg s).2.1)
  have one : (lit 1 : F32) -. FP.zero sg = lit 1 := by
    show FP.sub (FP.ofRat b32 false 1) (FP.zero sg) = FP.ofRat b32 false 1
    cases sg <;> decide +kernel
  have gt1 : ∀ s, ((lit 1 : F32) -. FP.zero sg <. (g.unit s).1) = false := by
    intro s
    rw [one, Bool.eq_false_iff]
    intro h
    have h : FP.lt (FP.ofRat b32 false 1) (g.unit s).1 = true := h
    rw [FP.lt_fin FP.lit1.1 (hg s).1, FP.lit1.2] at h
    exact absurd (of_decide_eq_true h) (not_lt.2 (hg s).2.2)
  constructor
  · rw [C41_salt_n_pepper_noise g sh]
    rw [shows_visit_id sh]
    · exact ⟨_, rfl⟩
    · intro s x y _ _
      unfold saltPepper
      simp only [lt0, gt1, Bool.false_eq_true, if_false]
  · rw [C41_rgb_noise g sh]
    rw [shows_visit_id sh]
    · exact ⟨_, rfl⟩
    · intro s x y _ _
      unfold rgbSpeck
      simp only [lt0, Bool.false_eq_true, if_false]

/-- Hypotheses met by a generator that draws 0, 1/2 and 1. -/
example [Libm b32] (s : Nat) : ((exampleRng : Rng Nat F32).unit s).1.fin = true ∧
    0 ≤ ((exampleRng : Rng Nat F32).unit s).1.val ∧
    ((exampleRng : Rng Nat F32).unit s).1.val ≤ 1 := by
  have h : s % 3 = 0 ∨ s % 3 = 1 ∨ s % 3 = 2 := by omega
  show (FP.ofRat b32 false (((s % 3 : Nat) : ℚ) / 2)).fin = true ∧
    0 ≤ (FP.ofRat b32 false (((s % 3 : Nat) : ℚ) / 2)).val ∧
    (FP.ofRat b32 false (((s % 3 : Nat) : ℚ) / 2)).val ≤ 1
  rcases h with h | h | h <;> rw [h] <;> decide +kernel

/-! ## C42: additive noise -/

section
variable {F σ : Type} [Scalar F]

/-- C42: random noise draws three times per pixel, in channel order, and mixes each channel with its
draw. -/
theorem C42_random_noise (g : Rng σ F) (space : Space) {b : PixelBuffer (Col F)} {w h px}
    (sh : Shows b w h px) (alpha : F) (s : σ) :
    random_noise g space b alpha s =
      .ok (⟨w, h, (visit (noisy g.symmetric space alpha) s (rows w h px)).1⟩,
        (visit (noisy g.symmetric space alpha) s (rows w h px)).2) :=
  map_colorsM_visit sh _ _ (noise_step g.symmetric space alpha) s

/-- C42: Gaussian noise likewise, with normally distributed draws. -/
theorem C42_gaussian_noise (g : Rng σ F) (space : Space) {b : PixelBuffer (Col F)} {w h px}
    (sh : Shows b w h px) (alpha : F) (s : σ) :
    gaussian_noise g space b alpha s =
      .ok (⟨w, h, (visit (noisy g.normal space alpha) s (rows w h px)).1⟩,
        (visit (noisy g.normal space alpha) s (rows w h px)).2) :=
  map_colorsM_visit sh _ _ (noise_step g.normal space alpha) s

/-- C42: for every generator, both kinds of noise keep the size; the colour channels of RGB and sRGB
images are in [0, 1] or not a number, and an alpha in range is kept (in any colour type). -/
theorem C42_noise_pixels [LawfulScalar F] (g : Rng σ F) (space : Space)
    {b : PixelBuffer (Col F)} {w h px} (sh : Shows b w h px) (alpha : F) (s : σ)
    (noise : Rng σ F → Space → PixelBuffer (Col F) → F → StateT σ R (PixelBuffer (Col F)))
    (hn : noise = random_noise ∨ noise = gaussian_noise) :
    ∃ b' s' px', noise g space b alpha s = .ok (b', s') ∧ Shows b' w h px' ∧
      ∀ x y, x < w → y < h →
        ((space = .rgb ∨ space = .srgb) → ColourInRange (px' x y)) ∧
        ((lit 0 <=. (px x y).alpha) = true → ((px x y).alpha <=. lit 1) = true →
          (px' x y).alpha = (px x y).alpha) := by
  have key : ∀ draw : σ → F × σ, ∃ px',
      Shows (⟨w, h, (visit (noisy draw space alpha) s (rows w h px)).1⟩ : PixelBuffer (Col F)) w h px'
      ∧ ∀ x y, x < w → y < h →
        ((space = .rgb ∨ space = .srgb) → ColourInRange (px' x y)) ∧
        ((lit 0 <=. (px x y).alpha) = true → ((px x y).alpha <=. lit 1) = true →
          (px' x y).alpha = (px x y).alpha) := by
    intro draw
    obtain ⟨px', hs, hp⟩ := visit_shows sh.size px (noisy draw space alpha) s
    refine ⟨px', hs, ?_⟩
    intro x y hx hy
    obtain ⟨s', e⟩ := hp x y hx hy
    rw [e]
    constructor
    · rintro (rfl | rfl)
      · exact ⟨clamp01_range _, clamp01_range _, clamp01_range _⟩
      · exact ⟨clamp01_range _, clamp01_range _, clamp01_range _⟩
    · intro h0 h1
      cases space
      · exact clamp01_id h0 h1
      · exact clamp01_id h0 h1
      all_goals rfl
  rcases hn with rfl | rfl
  · obtain ⟨px', hs, hp⟩ := key g.symmetric
    exact ⟨_, _, px', C42_random_noise g space sh alpha s, hs, hp⟩
  · obtain ⟨px', hs, hp⟩ := key g.normal
    exact ⟨_, _, px', C42_gaussian_noise g space sh alpha s, hs, hp⟩

end

/-- C42: with alpha 0 nothing is changed (exact arithmetic), for every generator: any image in a
colour type that does not clamp, and any in-range image in RGB or sRGB. -/
theorem C42_alpha_zero [Junk] {σ : Type} (g : Rng σ ℝ) (space : Space) {b : PixelBuffer (Col ℝ)}
    {w h px} (sh : Shows b w h px)
    (hu : space = .rgb ∨ space = .srgb → ∀ x y, x < w → y < h → Spec.Unit (px x y)) (s : σ) :
    (∃ s', random_noise g space b 0 s = .ok (b, s')) ∧
    (∃ s', gaussian_noise g space b 0 s = .ok (b, s')) := by
  have key : ∀ (draw : σ → ℝ × σ) s x y, x < w → y < h →
      (noisy draw space 0 s (px x y)).1 = px x y := by
    intro draw s x y hx hy
    unfold noisy
    ex_simp
    simp only [mul_zero, sub_zero, one_mul, zero_add]
    have cl : (space = .rgb ∨ space = .srgb) →
        Rgb.new_with_alpha (px x y).c0 (px x y).c1 (px x y).c2 (px x y).alpha = px x y := by
      intro h
      have u := hu h x y hx hy
      unfold Rgb.new_with_alpha
      rw [Exact.clamp01_id u.r0 u.r1, Exact.clamp01_id u.g0 u.g1, Exact.clamp01_id u.b0 u.b1,
        Exact.clamp01_id u.a0 u.a1]
    cases space
    · exact cl (.inl rfl)
    · exact cl (.inr rfl)
    all_goals rfl
  constructor
  · rw [C42_random_noise g space sh, shows_visit_id sh _ (key _)]
    exact ⟨_, rfl⟩
  · rw [C42_gaussian_noise g space sh, shows_visit_id sh _ (key _)]
    exact ⟨_, rfl⟩

/-- Hypotheses met: a one-pixel image. -/
example [Junk] : ∃ s', random_noise (exampleRng : Rng Nat ℝ) .rgb ⟨1, 1, [⟨1 / 2, 1, 0, 1⟩]⟩ 0 5 =
    .ok (⟨1, 1, [⟨1 / 2, 1, 0, 1⟩]⟩, s') := by
  have sh : Shows (⟨1, 1, [⟨1 / 2, 1, 0, 1⟩]⟩ : PixelBuffer (Col ℝ)) 1 1
      fun _ _ => ⟨1 / 2, 1, 0, 1⟩ := ⟨rfl, rfl, by unfold ValidSize; omega, rfl⟩
  exact (C42_alpha_zero exampleRng .rgb sh
    (fun _ _ _ _ _ => by constructor <;> norm_num) 5).1

end D10
