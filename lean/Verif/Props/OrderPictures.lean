import Verif.SpecOrderPictures
import Verif.Props.Order
import Verif.Props.BlurFloat
import Verif.Props.ResizeFloat
import Verif.Props.Negative

/-!
# A brighter picture gives a brighter result (C107)

Two pictures of the same size, one of them nowhere brighter than the other: is the result of an
operation nowhere brighter, either?
-/

namespace D10
open Spec PixelBuffer
open Scalar (lit)

/-! ## Blurring, in 32-bit arithmetic -/

/-- C107: Gaussian blur keeps the order, bit for bit as the program computes it. -/
theorem C107_blur [Libm b32] {δ : ℝ} (he : ExpWithin δ) (hδ : δ ≤ 1 / 2) (hs : SqrtWithin)
    {b b' : PixelBuffer (Col F32)} {w h : Nat} {px px' : Nat → Nat → Col F32}
    (s : Shows b w h px) (s' : Shows b' w h px')
    (hu : ∀ x y, x < w → y < h → UnitCol (px x y) ∧ UnitCol (px' x y) ∧ Darker (px x y) (px' x y))
    (r : Nat) (hr : r ≤ 1023) (sigma : Option F32)
    (hσ : SigmaOK (sigma.getD (get_default_sigma (2 * r + 1)))) :
    ∃ o o' q q', gaussian_blur b r sigma = .ok o ∧ gaussian_blur b' r sigma = .ok o' ∧
      Shows o w h q ∧ Shows o' w h q' ∧ ∀ x y, x < w → y < h → Darker (q x y) (q' x y) := by
  obtain ⟨o, h1, t1⟩ := (C12_gaussian_blur s r sigma).1 (by omega)
  obtain ⟨o', h2, t2⟩ := (C12_gaussian_blur s' r sigma).1 (by omega)
  refine ⟨o, o', _, _, h1, h2, t1, t2, ?_⟩
  intro x y hx hy
  obtain ⟨hwt, -⟩ := gauss_weights he hδ hs hσ (N := 2 * r + 1) (by omega) (by omega)
  have near : ∀ i j : Int, UnitCol (px (nearest w i) (nearest h j)) ∧
      UnitCol (px' (nearest w i) (nearest h j)) ∧
      Darker (px (nearest w i) (nearest h j)) (px' (nearest w i) (nearest h j)) := fun i j =>
    hu _ _ (nearest_lt (by omega) i) (nearest_lt (by omega) j)
  refine ⟨(total_rising ?_).le, (total_rising ?_).le, (total_rising ?_).le⟩ <;> intro i j hi hj <;>
    obtain ⟨a, b, e⟩ := near (x + i - ((2 * r + 1) / 2 : Nat)) (y + j - ((2 * r + 1) / 2 : Nat))
  · exact (chan_rising a.c0 e.c0).mul_left a.c0.1 b.c0.1 (hwt i j hi hj).1 (hwt i j hi hj).2
  · exact (chan_rising a.c1 e.c1).mul_left a.c1.1 b.c1.1 (hwt i j hi hj).1 (hwt i j hi hj).2
  · exact (chan_rising a.c2 e.c2).mul_left a.c2.1 b.c2.1 (hwt i j hi hj).1 (hwt i j hi hj).2

/-- Non-vacuity: a black and a white pixel, and a grey and a white one, blurred with radius 3. -/
example : ∃ L : Libm b32, @ExpWithin L (1 / 16777216) ∧ @SqrtWithin L ∧
    SigmaOK ((none : Option F32).getD (get_default_sigma (2 * 3 + 1))) ∧
    ∃ (b b' : PixelBuffer (Col F32)) (px px' : Nat → Nat → Col F32), Shows b 2 1 px ∧ Shows b' 2 1 px' ∧
      (∀ x y, x < 2 → y < 1 → UnitCol (px x y) ∧ UnitCol (px' x y) ∧ Darker (px x y) (px' x y)) ∧
      px 0 0 ≠ px' 0 0 := by
  let c : ℚ → Col F32 := fun a =>
    ⟨FP.ofRat b32 false a, FP.ofRat b32 false a, FP.ofRat b32 false a, FP.ofRat b32 false 1⟩
  let px : Nat → Nat → Col F32 := fun x _ => if x = 0 then c 0 else c 1
  let px' : Nat → Nat → Col F32 := fun x _ => if x = 0 then c (1 / 3) else c 1
  refine ⟨nearestExp, nearestExp_exp, nearestExp_sqrt,
    (@C95_default_sigma nearestExp 3 (by norm_num) (by norm_num)).1,
    ⟨2, 1, rows 2 1 px⟩, ⟨2, 1, rows 2 1 px'⟩, px, px', ⟨rfl, rfl, by simp [ValidSize], rfl⟩,
    ⟨rfl, rfl, by simp [ValidSize], rfl⟩, ?_, by decide +kernel⟩
  have d : ∀ a a' : ℚ, (FP.lt (FP.ofRat b32 false a) (FP.ofRat b32 false a') ||
      FP.eq (FP.ofRat b32 false a) (FP.ofRat b32 false a')) = true → @Darker nearestExp (c a) (c a') :=
    fun a a' h => @Darker.mk nearestExp _ _ h h h
  intro x y hx hy
  interval_cases x <;> interval_cases y
  · exact ⟨⟨by decide +kernel, by decide +kernel, by decide +kernel, by decide +kernel⟩,
      ⟨by decide +kernel, by decide +kernel, by decide +kernel, by decide +kernel⟩, d 0 (1 / 3) (by decide +kernel)⟩
  · exact ⟨⟨by decide +kernel, by decide +kernel, by decide +kernel, by decide +kernel⟩,
      ⟨by decide +kernel, by decide +kernel, by decide +kernel, by decide +kernel⟩, d 1 1 (by decide +kernel)⟩

/-! ## Bilinear interpolation, in exact arithmetic -/

section
variable [Junk]

theorem exact_frac (x : ℝ) : frac x = Int.fract x := by unfold frac; ex_simp; rfl

theorem lerp_mono {a b c d t : ℝ} (h0 : 0 ≤ t) (h1 : t ≤ 1) (hac : a ≤ c) (hbd : b ≤ d) :
    lerp a b t ≤ lerp c d t := by
  unfold lerp
  ex_simp
  nlinarith [mul_nonneg (sub_nonneg.2 h1) (sub_nonneg.2 hac), mul_nonneg h0 (sub_nonneg.2 hbd)]

theorem bilinear_mono {w h : Nat} {p q : Nat → Nat → Col ℝ} (hw : 0 < w) (hh : 0 < h)
    (hb : ∀ x y, x < w → y < h → BelowCol (p x y) (q x y)) (u v : ℝ) :
    BelowCol (bilinear w h p u v) (bilinear w h q u v) := by
  have hat : ∀ i j, BelowCol (at' w h p i j) (at' w h q i j) := fun i j =>
    hb _ _ (nearest_lt hw i) (nearest_lt hh j)
  have key : ∀ ch : Col ℝ → ℝ, (∀ i j, ch (at' w h p i j) ≤ ch (at' w h q i j)) →
      clamp01 (lerp (lerp (ch (at' w h p (base u) (base v + 0))) (ch (at' w h p (base u + 1) (base v + 0))) (frac u))
        (lerp (ch (at' w h p (base u) (base v + 1))) (ch (at' w h p (base u + 1) (base v + 1))) (frac u)) (frac v)) ≤
      clamp01 (lerp (lerp (ch (at' w h q (base u) (base v + 0))) (ch (at' w h q (base u + 1) (base v + 0))) (frac u))
        (lerp (ch (at' w h q (base u) (base v + 1))) (ch (at' w h q (base u + 1) (base v + 1))) (frac u)) (frac v)) := by
    intro ch hc
    rw [Exact.clamp01, Exact.clamp01, exact_frac, exact_frac]
    have fu := Int.fract_nonneg u
    have fu' := (Int.fract_lt_one u).le
    have fv := Int.fract_nonneg v
    have fv' := (Int.fract_lt_one v).le
    exact max_le_max le_rfl (min_le_min le_rfl (lerp_mono fv fv'
      (lerp_mono fu fu' (hc _ _) (hc _ _)) (lerp_mono fu fu' (hc _ _) (hc _ _))))
  exact ⟨key _ fun i j => (hat i j).c0, key _ fun i j => (hat i j).c1, key _ fun i j => (hat i j).c2,
    key _ fun i j => (hat i j).alpha⟩

/-- C107: resizing with the nearest pixel or bilinearly keeps the order. -/
theorem C107_resize {b b' : PixelBuffer (Col ℝ)} {w h : Nat} {p q : Nat → Nat → Col ℝ}
    (s : Shows b w h p) (s' : Shows b' w h q) (hw : 0 < w)
    (hb : ∀ x y, x < w → y < h → BelowCol (p x y) (q x y)) (nw nh : Nat) (hv : ValidSize nw nh)
    (filter : FilterMode) (hf : filter = .Nearest ∨ filter = .Bilinear) :
    ∃ o o' u v, resize b nw nh filter = .ok o ∧ resize b' nw nh filter = .ok o' ∧
      Shows o nw nh u ∧ Shows o' nw nh v ∧ ∀ x y, x < nw → y < nh → BelowCol (u x y) (v x y) := by
  have hh : 0 < h := by rcases s.size with ⟨h1, _⟩ | ⟨_, h, _⟩ <;> omega
  by_cases hne : nw = w ∧ nh = h
  · obtain ⟨rfl, rfl⟩ := hne
    refine ⟨b, b', p, q, ?_, ?_, s, s', hb⟩
    · have := C18_resize_same b filter
      rwa [s.width, s.height] at this
    · have := C18_resize_same b' filter
      rwa [s'.width, s'.height] at this
  · have ha : filter = .Auto → w ≤ 134217728 ∧ h ≤ 134217728 := by
      rintro rfl; rcases hf with h | h <;> cases h
    obtain ⟨o, e, t⟩ := C18_resize s hw nw nh hv hne filter ha
    obtain ⟨o', e', t'⟩ := C18_resize s' hw nw nh hv hne filter ha
    refine ⟨o, o', _, _, e, e', t, t', fun x y _ _ => ?_⟩
    rcases hf with rfl | rfl
    · exact hb _ _ (nearest_lt hw _) (nearest_lt hh _)
    · exact bilinear_mono hw hh hb _ _

/-- C107: rotating with the nearest pixel or bilinearly keeps the order, also for two backgrounds in
order. -/
theorem C107_rotate {b b' : PixelBuffer (Col ℝ)} {w h : Nat} {p q : Nat → Nat → Col ℝ}
    (s : Shows b w h p) (s' : Shows b' w h q) (hb : ∀ x y, x < w → y < h → BelowCol (p x y) (q x y))
    (angle : ℝ) {bg bg' : Col ℝ} (hbg : BelowCol bg bg')
    (filter : FilterMode) (hf : filter = .Nearest ∨ filter = .Bilinear) :
    ∃ o o' u v, rotate b angle bg filter = .ok o ∧ rotate b' angle bg' filter = .ok o' ∧
      Shows o w h u ∧ Shows o' w h v ∧ ∀ x y, x < w → y < h → BelowCol (u x y) (v x y) := by
  cases ha : (Scalar.abs (angle -. lit 360) <. lit (1 / 8388608) : Bool) with
  | true =>
    exact ⟨b, b', p, q, C21_rotate_360 _ _ _ _ ha, C21_rotate_360 _ _ _ _ ha, s, s', hb⟩
  | false =>
    obtain ⟨o, e, t⟩ := C21_rotate s angle bg filter ha
    obtain ⟨o', e', t'⟩ := C21_rotate s' angle bg' filter ha
    refine ⟨o, o', _, _, e, e', t, t', fun x y hx hy => ?_⟩
    unfold rotated
    simp only
    split_ifs with hin
    · rcases hf with rfl | rfl
      · obtain ⟨h1, h2, h3, h4⟩ := hin
        exact hb _ _ (by omega) (by omega)
      · exact bilinear_mono (by omega) (by omega) hb _ _
    · exact hbg

/-- Non-vacuity: a black picture and one with a white pixel. -/
example : ∃ (b b' : PixelBuffer (Col ℝ)) (p q : Nat → Nat → Col ℝ),
    Shows b 3 2 p ∧ Shows b' 3 2 q ∧ (∀ x y, x < 3 → y < 2 → BelowCol (p x y) (q x y)) ∧
    ¬ BelowCol (q 1 1) (p 1 1) ∧ ValidSize 5 4 := by
  let p : Nat → Nat → Col ℝ := fun _ _ => ⟨0, 0, 0, 1⟩
  let q : Nat → Nat → Col ℝ := fun x y => if x = 1 ∧ y = 1 then ⟨1, 1, 1, 1⟩ else ⟨0, 0, 0, 1⟩
  refine ⟨⟨3, 2, rows 3 2 p⟩, ⟨3, 2, rows 3 2 q⟩, p, q,
    ⟨rfl, rfl, by simp [ValidSize], rfl⟩, ⟨rfl, rfl, by simp [ValidSize], rfl⟩, ?_, ?_, by simp [ValidSize]⟩
  · intro x y _ _
    simp only [p, q]
    split
    · constructor <;> norm_num
    · exact ⟨le_rfl, le_rfl, le_rfl, le_rfl⟩
  · rintro ⟨h, -, -, -⟩
    norm_num [p, q] at h

/-- C107: bicubic interpolation does not keep the order, even in exact arithmetic: a brighter pixel
makes the ones beyond its neighbour darker. -/
theorem C107_bicubic : ∃ (b b' : PixelBuffer (Col ℝ)) (p q : Nat → Nat → Col ℝ),
    Shows b 4 1 p ∧ Shows b' 4 1 q ∧ (∀ x y, x < 4 → y < 1 → BelowCol (p x y) (q x y)) ∧
    ∃ o o' u v, resize b 8 1 .Bicubic = .ok o ∧ resize b' 8 1 .Bicubic = .ok o' ∧
      Shows o 8 1 u ∧ Shows o' 8 1 v ∧ (v 3 0).c0 < (u 3 0).c0 := by
  let p : Nat → Nat → Col ℝ := fun _ _ => ⟨1 / 2, 1 / 2, 1 / 2, 1⟩
  let q : Nat → Nat → Col ℝ := fun x _ => if x = 0 then ⟨1, 1, 1, 1⟩ else ⟨1 / 2, 1 / 2, 1 / 2, 1⟩
  have hv : ValidSize 4 1 := Or.inr (by norm_num)
  have s : Shows (⟨4, 1, rows 4 1 p⟩ : PixelBuffer (Col ℝ)) 4 1 p := ⟨rfl, rfl, hv, rfl⟩
  have s' : Shows (⟨4, 1, rows 4 1 q⟩ : PixelBuffer (Col ℝ)) 4 1 q := ⟨rfl, rfl, hv, rfl⟩
  obtain ⟨o, e, t⟩ := C18_resize s (by norm_num) 8 1 (Or.inr (by norm_num)) (by norm_num) .Bicubic (by simp)
  obtain ⟨o', e', t'⟩ := C18_resize s' (by norm_num) 8 1 (Or.inr (by norm_num)) (by norm_num) .Bicubic (by simp)
  refine ⟨_, _, p, q, s, s', ?_, o, o', _, _, e, e', t, t', ?_⟩
  · intro x y _ _
    simp only [p, q]
    split
    · constructor <;> norm_num
    · exact ⟨le_rfl, le_rfl, le_rfl, le_rfl⟩
  · have px : (scaledPos 4 8 3 : ℝ) = 5 / 4 := by
      rw [Exact.scaledPos_eq _ _ _ (by norm_num) (by norm_num)]; norm_num
    have py : (scaledPos 1 1 0 : ℝ) = 0 := by
      rw [Exact.scaledPos_eq _ _ _ (by norm_num) (by norm_num)]; norm_num
    have bx : base (5 / 4 : ℝ) = 1 := by
      
      have : ⌊(5 / 4 : ℝ)⌋ = 1 := by rw [Int.floor_eq_iff]; norm_num
      rw [Exact.base_of] <;> rw [this] <;> norm_num
    have b0 : base (0 : ℝ) = 0 := by rw [Exact.base_of] <;> norm_num
    have fx : frac (5 / 4 : ℝ) = 1 / 4 := by
      rw [exact_frac, Int.fract]
      have : ⌊(5 / 4 : ℝ)⌋ = 1 := by rw [Int.floor_eq_iff]; norm_num
      rw [this]; norm_num
    have f0 : frac (0 : ℝ) = 0 := by rw [exact_frac]; simp
    show (bicubic 4 1 q (scaledPos 4 8 3) (scaledPos 1 1 0)).c0 <
      (bicubic 4 1 p (scaledPos 4 8 3) (scaledPos 1 1 0)).c0
    rw [px, py]
    unfold bicubic perChannel
    simp only [bx, b0, fx, f0, at', p, q, Exact.clamp01]
    unfold cubic
    ex_simp
    norm_num [nearest]

end

/-! ## Bilinear interpolation, in 32-bit arithmetic -/

/-- C107: in 32-bit arithmetic bilinear interpolation does not keep the order: the left one of two
pixels gets brighter, and the one between them gets darker, by the last digit. -/
theorem C107_bilinear_float [Libm b32] : ∃ (b b' : PixelBuffer (Col F32)) (p q : Nat → Nat → Col F32),
    Shows b 2 1 p ∧ Shows b' 2 1 q ∧
    (∀ x y, x < 2 → y < 1 → UnitCol (p x y) ∧ UnitCol (q x y) ∧ Darker (p x y) (q x y)) ∧
    ∃ o o' u v, resize b 3 1 .Bilinear = .ok o ∧ resize b' 3 1 .Bilinear = .ok o' ∧
      Shows o 3 1 u ∧ Shows o' 3 1 v ∧ (v 1 0).c0.val < (u 1 0).c0.val := by
  let c : ℚ → Col F32 := fun a => ⟨lit a, lit a, lit a, lit 1⟩
  let p : Nat → Nat → Col F32 := fun x _ => if x = 0 then c (1 / 33554432) else c (3 / 4)
  let q : Nat → Nat → Col F32 := fun x _ => if x = 0 then c (8388609 / 281474976710656) else c (3 / 4)
  have hv : ValidSize 2 1 := Or.inr (by norm_num)
  have s : Shows (⟨2, 1, rows 2 1 p⟩ : PixelBuffer (Col F32)) 2 1 p := ⟨rfl, rfl, hv, rfl⟩
  have s' : Shows (⟨2, 1, rows 2 1 q⟩ : PixelBuffer (Col F32)) 2 1 q := ⟨rfl, rfl, hv, rfl⟩
  obtain ⟨o, e, t⟩ := C18_resize s (by norm_num) 3 1 (Or.inr (by norm_num)) (by norm_num) .Bilinear (by simp)
  obtain ⟨o', e', t'⟩ := C18_resize s' (by norm_num) 3 1 (Or.inr (by norm_num)) (by norm_num) .Bilinear (by simp)
  refine ⟨_, _, p, q, s, s', ?_, o, o', _, _, e, e', t, t', ?_⟩
  · have o1 : (lit 1 : F32).fin = true ∧ 0 ≤ (lit 1 : F32).val ∧ (lit 1 : F32).val ≤ 1 := by
      show (FP.ofRat b32 false 1).fin = true ∧ 0 ≤ (FP.ofRat b32 false 1).val ∧ (FP.ofRat b32 false 1).val ≤ 1
      decide +kernel
    have u : ∀ a : ℚ, ((FP.ofRat b32 false a).fin = true ∧ 0 ≤ (FP.ofRat b32 false a).val ∧
        (FP.ofRat b32 false a).val ≤ 1) → UnitCol (c a) := fun a h => ⟨h, h, h, o1⟩
    have d : ∀ a a' : ℚ, (FP.lt (FP.ofRat b32 false a) (FP.ofRat b32 false a') || FP.eq (FP.ofRat b32 false a) (FP.ofRat b32 false a')) = true → Darker (c a) (c a') :=
      fun a a' h => ⟨h, h, h⟩
    intro x y _ _
    simp only [p, q]
    split
    · exact ⟨u _ (by decide +kernel), u _ (by decide +kernel), d _ _ (by decide +kernel)⟩
    · exact ⟨u _ (by decide +kernel), u _ (by decide +kernel), d _ _ (by decide +kernel)⟩
  · have px : (scaledPos 2 3 1 : F32) = lit (1 / 2) := by
      show FP.sub (FP.div (FP.add (FP.ofRat b32 false ((1 : Nat) : ℚ)) (FP.ofRat b32 false 0.5))
        (FP.div (FP.ofRat b32 false ((3 : Nat) : ℚ)) (FP.ofRat b32 false ((2 : Nat) : ℚ)))) (FP.ofRat b32 false 0.5) =
        FP.ofRat b32 false (1 / 2)
      decide +kernel
    have py : (scaledPos 1 1 0 : F32) = lit 0 := by
      show FP.sub (FP.div (FP.add (FP.ofRat b32 false ((0 : Nat) : ℚ)) (FP.ofRat b32 false 0.5))
        (FP.div (FP.ofRat b32 false ((1 : Nat) : ℚ)) (FP.ofRat b32 false ((1 : Nat) : ℚ)))) (FP.ofRat b32 false 0.5) =
        FP.ofRat b32 false 0
      decide +kernel
    have bx : base (lit (1 / 2) : F32) = 0 := by
      show FP.toInt (-2147483648) 2147483647 (FP.integral Int.floor (FP.ofRat b32 false (1 / 2))) = 0
      decide +kernel
    have by' : base (lit 0 : F32) = 0 := by
      show FP.toInt (-2147483648) 2147483647 (FP.integral Int.floor (FP.ofRat b32 false 0)) = 0
      decide +kernel
    have fx : frac (lit (1 / 2) : F32) = lit (1 / 2) := by
      show FP.sub (FP.ofRat b32 false (1 / 2)) (FP.integral Int.floor (FP.ofRat b32 false (1 / 2))) = FP.ofRat b32 false (1 / 2)
      decide +kernel
    have fy : frac (lit 0 : F32) = lit 0 := by
      show FP.sub (FP.ofRat b32 false 0) (FP.integral Int.floor (FP.ofRat b32 false 0)) = FP.ofRat b32 false 0
      decide +kernel
    show (bilinear 2 1 q (scaledPos 2 3 1) (scaledPos 1 1 0)).c0.val <
      (bilinear 2 1 p (scaledPos 2 3 1) (scaledPos 1 1 0)).c0.val
    have row : ∀ a : ℚ, ∀ z : Nat → Nat → Col F32, (z = fun x _ => if x = 0 then c a else c (3 / 4)) →
        (bilinear 2 1 z (scaledPos 2 3 1) (scaledPos 1 1 0)).c0 =
          clamp01 (lerp (lerp (lit a) (lit (3 / 4)) (lit (1 / 2)))
            (lerp (lit a) (lit (3 / 4)) (lit (1 / 2))) (lit 0)) := by
      rintro a _ rfl
      rw [px, py]
      unfold bilinear perChannel
      simp only [bx, fx, fy, at']
      rfl
    have cl : ∀ v : F32, (clamp01 v : F32) =
        (if FP.lt v (FP.ofRat b32 false 0) = true then FP.ofRat b32 false 0
          else if FP.lt (FP.ofRat b32 false 1) v = true then FP.ofRat b32 false 1 else v) := fun v => rfl
    rw [row _ q rfl, row _ p rfl, cl, cl]
    let l : F32 → F32 → F32 → F32 := fun a b t => FP.add a (FP.mul (FP.sub b a) t)
    have go : ∀ a r : ℚ, l (l (FP.ofRat b32 false a) (FP.ofRat b32 false (3 / 4)) (FP.ofRat b32 false (1 / 2)))
        (l (FP.ofRat b32 false a) (FP.ofRat b32 false (3 / 4)) (FP.ofRat b32 false (1 / 2))) (FP.ofRat b32 false 0) =
          FP.ofRat b32 false r →
        (lerp (lerp (lit a) (lit (3 / 4)) (lit (1 / 2))) (lerp (lit a) (lit (3 / 4)) (lit (1 / 2))) (lit 0) : F32) =
          FP.ofRat b32 false r := fun a r h => h
    rw [go (1 / 33554432) (12582913 / 33554432) (by decide +kernel),
      go (8388609 / 281474976710656) (3 / 8) (by decide +kernel)]
    decide +kernel

end D10
