import Verif.Lemmas.Tensor
import Mathlib.Tactic.FinCases

/-!
# Resizing and rotating treat mirror images alike (C88, C89)
-/

namespace D10
open Spec PixelBuffer
open Scalar (lit)

section
variable [Junk]

/-! ## The filters as weighted means -/

noncomputable def linearWeight (t : ℝ) (i : Int) : ℝ := if i = 0 then 1 - t else if i = 1 then t else 0

noncomputable def cubicWeight (t : ℝ) (i : Int) : ℝ :=
  if i = -1 then (-t + 2 * t ^ 2 - t ^ 3) / 2
  else if i = 0 then 1 - 5 / 2 * t ^ 2 + 3 / 2 * t ^ 3
  else if i = 1 then (t + 4 * t ^ 2 - 3 * t ^ 3) / 2
  else if i = 2 then (t ^ 3 - t ^ 2) / 2 else 0

omit [Junk] in
theorem offsets0 (f : Int → ℝ) : ∑ i ∈ offsets 0, f i = f 0 + f 1 := by
  have : offsets 0 = {0, 1} := by unfold offsets; decide
  rw [this, Finset.sum_pair (by decide)]

omit [Junk] in
theorem offsets1 (f : Int → ℝ) : ∑ i ∈ offsets 1, f i = f (-1) + f 0 + f 1 + f 2 := by
  have : offsets 1 = {-1, 0, 1, 2} := by unfold offsets; decide
  rw [this, Finset.sum_insert (by decide), Finset.sum_insert (by decide), Finset.sum_pair (by decide)]
  ring

omit [Junk] in
theorem linear_balanced : Balanced 0 linearWeight where
  between t h0 h1 i hi := by
    have : i = 0 ∨ i = 1 := by unfold offsets at hi; rw [Finset.mem_Icc] at hi; omega
    rcases this with rfl | rfl <;> simp [linearWeight]
  exact i hi := by
    have : i = 0 ∨ i = 1 := by unfold offsets at hi; rw [Finset.mem_Icc] at hi; omega
    rcases this with rfl | rfl <;> simp [linearWeight]
  edge := by simp [linearWeight]

omit [Junk] in
theorem cubic_balanced : Balanced 1 cubicWeight where
  between t h0 h1 i hi := by
    have : i = -1 ∨ i = 0 ∨ i = 1 ∨ i = 2 := by
      unfold offsets at hi; rw [Finset.mem_Icc] at hi; push_cast at hi; omega
    rcases this with rfl | rfl | rfl | rfl <;> simp [cubicWeight] <;> ring
  exact i hi := by
    have : i = -1 ∨ i = 0 ∨ i = 1 ∨ i = 2 := by
      unfold offsets at hi; rw [Finset.mem_Icc] at hi; push_cast at hi; omega
    rcases this with rfl | rfl | rfl | rfl <;> simp [cubicWeight]
  edge := by simp [cubicWeight]

theorem bilinear_sampled (w h : Nat) (px : Nat → Nat → Col ℝ) (x y : ℝ) :
    bilinear w h px x y = sampled 0 linearWeight clamp01 w h px x y := by
  unfold bilinear sampled
  congr 1
  funext ch
  simp only [Exact.lerp_eq]
  congr 1
  unfold tensor along
  simp only [offsets0]
  simp only [linearWeight, add_zero]
  norm_num
  ring

theorem bicubic_sampled (w h : Nat) (px : Nat → Nat → Col ℝ) (x y : ℝ) :
    bicubic w h px x y = sampled 1 cubicWeight clamp01 w h px x y := by
  unfold bicubic sampled
  congr 1
  funext ch
  simp only [Exact.cubic_eq]
  congr 1
  unfold tensor along
  simp only [offsets1]
  simp only [cubicWeight, add_zero]
  norm_num
  ring

theorem sum_range (n : Nat) (f : Nat → ℝ) : Spec.sum n f = ∑ i ∈ Finset.range n, f i := by
  unfold Spec.sum
  induction n with
  | zero => simp; ex_simp
  | succ n ih =>
    rw [List.range_succ, List.foldl_append, ih, Finset.sum_range_succ]
    simp only [List.foldl_cons, List.foldl_nil]
    ex_simp

/-- `2 m + 1` taps are a weighted mean if the weights vanish from `m + 1` on. -/
theorem windowed_sampled (w h : Nat) (px : Nat → Nat → Col ℝ) (m : Nat) (wt : ℝ → Nat → ℝ)
    (κ : ℝ → Int → ℝ) (hκ : ∀ t, 0 ≤ t → t < 1 → κ t ((m : Int) + 1) = 0)
    (hwt : ∀ t, 0 ≤ t → t < 1 → ∀ i < 2 * m + 1, wt t i = κ t ((i : Int) - m)) (x y : ℝ) :
    windowed w h px (2 * m + 1) (wt (frac x)) (wt (frac y)) x y = sampled m κ id w h px x y := by
  have line : ∀ (f : Int → ℝ) (x : ℝ),
      (∑ i ∈ Finset.range (2 * m + 1), f (base x + i - ((2 * m + 1) / 2 : Nat)) * wt (frac x) i) =
        along m κ f x := by
    intro f x
    have hm : (2 * m + 1) / 2 = m := by omega
    have hr := Exact.frac_range x
    rw [hm]
    unfold along
    have cut : (∑ i ∈ offsets m, f (base x + i) * κ (frac x) i) =
        ∑ i ∈ Finset.Icc (-(m : Int)) m, f (base x + i) * κ (frac x) i := by
      symm
      apply Finset.sum_subset
      · intro i hi
        unfold offsets
        rw [Finset.mem_Icc] at *; omega
      · intro i hi hni
        unfold offsets at hi
        rw [Finset.mem_Icc] at *
        have : i = (m : Int) + 1 := by omega
        rw [this, hκ _ hr.1 hr.2, mul_zero]
    rw [cut]
    refine Finset.sum_bij' (fun i _ => (i : Int) - m) (fun i _ => (i + m).toNat) ?_ ?_ ?_ ?_ ?_
    · intro i hi; rw [Finset.mem_range] at hi; rw [Finset.mem_Icc]; omega
    · intro i hi; rw [Finset.mem_Icc] at hi; rw [Finset.mem_range]; omega
    · intro i hi; simp
    · intro i hi; rw [Finset.mem_Icc] at hi; omega
    · intro i hi
      rw [hwt _ hr.1 hr.2 i (Finset.mem_range.1 hi)]
      congr 2
      omega
  unfold windowed sampled
  congr 1
  funext ch
  simp only [sum_range, id]
  unfold tensor
  rw [← line]
  refine Finset.sum_congr rfl fun j _ => ?_
  rw [← line]
  rfl

theorem lanczos3_far {v : ℝ} (h : 3 ≤ v) : lanczos3 v = 0 := by
  unfold lanczos3
  have : (v <. lit 3) = false := by
    rw [Bool.eq_false_iff]; intro h'; rw [Exact.lt] at h'; ex_simp at h'; linarith
  rw [this]; ex_simp; simp

theorem lanczosScaled_far {s v : ℝ} (hs : 0 < s) (h : s ≤ v) : lanczosScaled s v = 0 := by
  have : (v /. s *. lit 3 <. lit 3) = false := by
    rw [Bool.eq_false_iff]; intro h'; rw [Exact.lt, Exact.div hs.ne'] at h'; ex_simp at h'
    have : 1 ≤ v / s := (one_le_div hs).2 h
    linarith
  unfold lanczosScaled
  rw [this]; ex_simp; simp

omit [Junk] in
theorem even_balanced (m : Nat) (k : ℝ → ℝ) (hk : ∀ v, (m : ℝ) + 1 ≤ v → k v = 0) :
    Balanced m (fun t i => k |(i : ℝ) - t|) where
  between t h0 h1 i hi := by
    congr 1
    push_cast
    rw [show (1 : ℝ) - i - (1 - t) = -(i - t) by ring, abs_neg]
  exact i hi := by simp
  edge := hk _ (by simp; exact le_abs_self _)

theorem lanczos7_sampled (w h : Nat) (px : Nat → Nat → Col ℝ) (x y : ℝ) :
    lanczosAt w h px 7 x y = sampled 3 (fun t i => lanczos3 |(i : ℝ) - t|) id w h px x y := by
  unfold lanczosAt
  refine windowed_sampled w h px 3 (lanczosTap 7) _ ?_ ?_ x y
  · intro t h0 h1
    apply lanczos3_far
    rw [abs_of_nonneg] <;> push_cast <;> linarith
  · intro t h0 h1 i hi
    unfold lanczosTap
    simp only [if_true]
    congr 1
    unfold Scalar.ofNat
    ex_simp
    push_cast
    congr 1
    norm_num

theorem lanczosDyn_sampled (w h : Nat) (px : Nat → Nat → Col ℝ) (s : Nat) (hs : 0 < s) (x y : ℝ) :
    lanczosDynAt w h px s x y = sampled s (fun t i => lanczosScaled (s : ℝ) |(i : ℝ) - t|) id w h px x y := by
  have hs' : (0 : ℝ) < s := by exact_mod_cast hs
  unfold lanczosDynAt
  rw [Nat.mul_comm s 2]
  refine windowed_sampled w h px s (lanczosDynTap s) _ ?_ ?_ x y
  · intro t h0 h1
    apply lanczosScaled_far hs'
    rw [abs_of_nonneg] <;> push_cast <;> linarith
  · intro t h0 h1 i hi
    unfold lanczosDynTap Scalar.ofNat Scalar.ofInt
    ex_simp

/-! ## Resizing -/

theorem scaledPos_mirror (w nw x : Nat) (hw : 0 < w) (hx : x < nw) :
    (scaledPos w nw (nw - 1 - x) : ℝ) = (w : ℝ) - 1 - scaledPos w nw x := by
  have hn : (nw : ℝ) ≠ 0 := by exact_mod_cast (by omega : nw ≠ 0)
  rw [Exact.scaledPos_eq _ _ _ hw (by omega), Exact.scaledPos_eq _ _ _ hw (by omega),
    Nat.cast_sub (by omega), Nat.cast_sub (by omega)]
  field_simp
  push_cast
  ring

theorem scaledPos_range (w nw x : Nat) (hw : 0 < w) (hwl : w ≤ 1073741823) (hx : x < nw) :
    -1000000000 ≤ (scaledPos w nw x : ℝ) ∧ (scaledPos w nw x : ℝ) ≤ 2000000000 := by
  have hn : (0 : ℝ) < nw := by exact_mod_cast (by omega : 0 < nw)
  have hw' : (0 : ℝ) < w := by exact_mod_cast hw
  have hwl' : (w : ℝ) ≤ 1073741823 := by exact_mod_cast hwl
  have hx' : (x : ℝ) + 1 ≤ nw := by exact_mod_cast hx
  have hx0 : (0 : ℝ) ≤ x := Nat.cast_nonneg x
  rw [Exact.scaledPos_eq _ _ _ hw (by omega)]
  have h1 : 0 ≤ ((x : ℝ) + 1 / 2) * w / nw := by positivity
  have h2 : ((x : ℝ) + 1 / 2) * w / nw ≤ w := by
    rw [div_le_iff₀ hn]; nlinarith
  constructor <;> linarith

/-- Filters for which C88 holds: all but the nearest pixel, and the automatic filter unless it reduces
the image by a factor above 3/2 and up to 3. -/
theorem resized_form {filter : FilterMode} {w h nw nh : Nat} (hw : 0 < w) (hh : 0 < h)
    (hwl : w ≤ 1073741823) (hhl : h ≤ 1073741823) (hnw : 0 < nw) (hnh : 0 < nh)
    (hf : filter ≠ .Nearest)
    (ha : filter = .Auto → w ≤ nw ∨ h ≤ nh ∨ (2 * w ≤ 3 * nw ∧ 2 * h ≤ 3 * nh) ∨ 3 * nw < w ∨ 3 * nh < h) :
    ∃ M κ cl, Balanced M κ ∧
      (∀ px x y, resized filter w h px nw nh x y =
        sampled M κ cl w h px (scaledPos w nw x) (scaledPos h nh y)) ∧
      (∀ px x y, resized filter h w px nh nw y x =
        sampled M κ cl h w px (scaledPos h nh y) (scaledPos w nw x)) := by
  have b3 : Balanced 3 (fun t i => lanczos3 |(i : ℝ) - t|) :=
    even_balanced 3 lanczos3 fun v hv => lanczos3_far (by push_cast at hv; linarith)
  cases filter with
  | Nearest => exact absurd rfl hf
  | Bilinear =>
    exact ⟨0, _, clamp01, linear_balanced, fun _ _ _ => bilinear_sampled .., fun _ _ _ => bilinear_sampled ..⟩
  | Bicubic =>
    exact ⟨1, _, clamp01, cubic_balanced, fun _ _ _ => bicubic_sampled .., fun _ _ _ => bicubic_sampled ..⟩
  | Lanczos3 =>
    exact ⟨3, _, id, b3, fun _ _ _ => lanczos7_sampled .., fun _ _ _ => lanczos7_sampled ..⟩
  | Auto =>
    by_cases hup : w ≤ nw ∨ h ≤ nh
    · refine ⟨1, _, clamp01, cubic_balanced, fun px x y => ?_, fun px x y => ?_⟩
      · simp only [resized]
        rw [if_pos hup]; exact bicubic_sampled ..
      · simp only [resized]
        rw [if_pos hup.symm]; exact bicubic_sampled ..
    · have hup' : ¬ (h ≤ nh ∨ w ≤ nw) := fun h => hup h.symm
      have e1 := C18_auto_window w h nw nh hw hh hnw hnh hwl hhl
      have e2 := C18_auto_window h w nh nw hh hw hnh hnw hhl hwl
      rw [max_comm ((h : ℝ) / nh)] at e2
      have e : autoWindow ℝ h w nh nw = autoWindow ℝ w h nw nh := by omega
      have hnw' : (0 : ℝ) < nw := by exact_mod_cast hnw
      have hnh' : (0 : ℝ) < nh := by exact_mod_cast hnh
      have alt : autoWindow ℝ w h nw nh = 3 ∨ 6 < autoWindow ℝ w h nw nh := by
        have big : (3 : ℝ) < max ((w : ℝ) / nw) ((h : ℝ) / nh) → 6 < autoWindow ℝ w h nw nh := by
          intro hb
          have : (6 : Int) < ⌈2 * max ((w : ℝ) / nw) ((h : ℝ) / nh)⌉ := by
            rw [Int.lt_ceil]; push_cast; linarith
          omega
        rcases ha rfl with h | h | ⟨h1, h2⟩ | h | h
        · exact absurd (Or.inl h) hup
        · exact absurd (Or.inr h) hup
        · left
          have h1' : (2 : ℝ) * w ≤ 3 * nw := by exact_mod_cast h1
          have h2' : (2 : ℝ) * h ≤ 3 * nh := by exact_mod_cast h2
          have a1 : (w : ℝ) / nw ≤ 3 / 2 := by rw [div_le_iff₀ hnw']; linarith
          have a2 : (h : ℝ) / nh ≤ 3 / 2 := by rw [div_le_iff₀ hnh']; linarith
          have a3 : max ((w : ℝ) / nw) ((h : ℝ) / nh) ≤ 3 / 2 := max_le a1 a2
          have : ⌈2 * max ((w : ℝ) / nw) ((h : ℝ) / nh)⌉ ≤ 3 := by
            rw [Int.ceil_le]; push_cast; linarith
          omega
        · right
          apply big
          refine lt_of_lt_of_le ?_ (le_max_left _ _)
          rw [lt_div_iff₀ hnw']; exact_mod_cast h
        · right
          apply big
          refine lt_of_lt_of_le ?_ (le_max_right _ _)
          rw [lt_div_iff₀ hnh']; exact_mod_cast h
      rcases alt with h3 | h6
      · refine ⟨3, _, id, b3, fun px x y => ?_, fun px x y => ?_⟩
        · simp only [resized]
          rw [if_neg hup, if_pos (by omega), h3]; exact lanczos7_sampled ..
        · simp only [resized]
          rw [if_neg hup', if_pos (by omega), e, h3]; exact lanczos7_sampled ..
      · have pos : (0 : ℝ) < (autoWindow ℝ w h nw nh : Nat) := by
          exact_mod_cast (by omega : 0 < autoWindow ℝ w h nw nh)
        refine ⟨autoWindow ℝ w h nw nh, _, id, even_balanced _
          (lanczosScaled ((autoWindow ℝ w h nw nh : Nat) : ℝ)) fun v hv => lanczosScaled_far pos (by linarith),
          fun px x y => ?_, fun px x y => ?_⟩
        · simp only [resized]
          rw [if_neg hup, if_neg (by omega)]; exact lanczosDyn_sampled _ _ _ _ (by omega) _ _
        · simp only [resized]
          rw [if_neg hup', if_neg (by omega), e]; exact lanczosDyn_sampled _ _ _ _ (by omega) _ _

/-- C88: resizing the mirrored or turned image gives the mirrored or turned resized image (quarter
turns exchange the new width and height): bilinear, bicubic and Lanczos filters, and the automatic
filter unless it reduces by a factor above 3/2 and up to 3. -/
theorem C88_resize {b : PixelBuffer (Col ℝ)} (hb : WellFormed b) (h0 : 0 < b.width) (nw nh : Nat)
    (hv : ValidSize nw nh) (filter : FilterMode) (hf : filter ≠ .Nearest)
    (ha : filter = .Auto → (b.width ≤ 134217728 ∧ b.height ≤ 134217728) ∧
      (b.width ≤ nw ∨ b.height ≤ nh ∨ (2 * b.width ≤ 3 * nw ∧ 2 * b.height ≤ 3 * nh) ∨
        3 * nw < b.width ∨ 3 * nh < b.height)) :
    (flip_horizontal Rgb.NONE b >>= (resize · nw nh filter)) =
      (resize b nw nh filter >>= flip_horizontal Rgb.NONE) ∧
    (flip_vertical Rgb.NONE b >>= (resize · nw nh filter)) =
      (resize b nw nh filter >>= flip_vertical Rgb.NONE) ∧
    (rotate180 Rgb.NONE b >>= (resize · nw nh filter)) =
      (resize b nw nh filter >>= rotate180 Rgb.NONE) ∧
    (rotate90 Rgb.NONE b >>= (resize · nh nw filter)) =
      (resize b nw nh filter >>= rotate90 Rgb.NONE) ∧
    (rotate270 Rgb.NONE b >>= (resize · nh nw filter)) =
      (resize b nw nh filter >>= rotate270 Rgb.NONE) := by
  obtain ⟨px, s⟩ := wf_shows (Rgb.NONE : Col ℝ) hb
  generalize b.width = w at s h0 ha
  generalize b.height = h at s ha
  have hh : 0 < h := by rcases s.size with ⟨h1, _⟩ | ⟨_, h, _⟩ <;> omega
  have hwl := s.size.width_le
  have hhl := s.size.height_le
  obtain ⟨f1, g1, t1⟩ := C13_flip_horizontal (Rgb.NONE : Col ℝ) s
  obtain ⟨f2, g2, t2⟩ := C13_flip_vertical (Rgb.NONE : Col ℝ) s
  obtain ⟨f3, g3, t3⟩ := C14_rotate180 (Rgb.NONE : Col ℝ) s
  obtain ⟨f4, g4, t4⟩ := C14_rotate90 (Rgb.NONE : Col ℝ) s
  obtain ⟨f5, g5, t5⟩ := C14_rotate270 (Rgb.NONE : Col ℝ) s
  rw [g1, g2, g3, g4, g5]
  simp only [ok_bind]
  have hvt : ValidSize nh nw := by
    unfold ValidSize at hv ⊢
    rcases hv with ⟨rfl, rfl⟩ | ⟨a, b, c⟩
    · left; exact ⟨rfl, rfl⟩
    · right; exact ⟨b, a, by rw [Nat.mul_comm]; exact c⟩
  by_cases hsame : nw = w ∧ nh = h
  · obtain ⟨rfl, rfl⟩ := hsame
    have id0 := C18_resize_same b filter
    have id1 := C18_resize_same f1 filter
    have id2 := C18_resize_same f2 filter
    have id3 := C18_resize_same f3 filter
    have id4 := C18_resize_same f4 filter
    have id5 := C18_resize_same f5 filter
    rw [s.width, s.height] at id0
    rw [t1.width, t1.height] at id1
    rw [t2.width, t2.height] at id2
    rw [t3.width, t3.height] at id3
    rw [t4.width, t4.height] at id4
    rw [t5.width, t5.height] at id5
    rw [id0, id1, id2, id3, id4, id5]
    simp only [ok_bind]
    exact ⟨g1.symm, g2.symm, g3.symm, g4.symm, g5.symm⟩
  · have hsame' : ¬ (nh = h ∧ nw = w) := fun h => hsame h.symm
    obtain ⟨r, e, sr⟩ := C18_resize s h0 nw nh hv hsame filter (fun h => (ha h).1)
    obtain ⟨r1, e1, s1⟩ := C18_resize t1 h0 nw nh hv hsame filter (fun h => (ha h).1)
    obtain ⟨r2, e2, s2⟩ := C18_resize t2 h0 nw nh hv hsame filter (fun h => (ha h).1)
    obtain ⟨r3, e3, s3⟩ := C18_resize t3 h0 nw nh hv hsame filter (fun h => (ha h).1)
    obtain ⟨r4, e4, s4⟩ := C18_resize t4 hh nh nw hvt hsame' filter (fun h => (ha h).1.symm)
    obtain ⟨r5, e5, s5⟩ := C18_resize t5 hh nh nw hvt hsame' filter (fun h => (ha h).1.symm)
    obtain ⟨f1', g1', t1'⟩ := C13_flip_horizontal (Rgb.NONE : Col ℝ) sr
    obtain ⟨f2', g2', t2'⟩ := C13_flip_vertical (Rgb.NONE : Col ℝ) sr
    obtain ⟨f3', g3', t3'⟩ := C14_rotate180 (Rgb.NONE : Col ℝ) sr
    obtain ⟨f4', g4', t4'⟩ := C14_rotate90 (Rgb.NONE : Col ℝ) sr
    obtain ⟨f5', g5', t5'⟩ := C14_rotate270 (Rgb.NONE : Col ℝ) sr
    rw [e, e1, e2, e3, e4, e5]
    simp only [ok_bind]
    rw [g1', g2', g3', g4', g5']
    have form := fun hnw hnh => resized_form h0 hh hwl hhl (nw := nw) (nh := nh) hnw hnh hf (fun h => (ha h).2)
    have fx : ∀ (p : Nat → Nat → Col ℝ) x y, x < nw → y < nh →
        resized filter w h (fun x y => p (w - 1 - x) y) nw nh x y = resized filter w h p nw nh (nw - 1 - x) y := by
      intro p x y hx hy
      obtain ⟨M, κ, cl, hκ, h1, _⟩ := form (by omega) (by omega)
      have hr := scaledPos_range w nw x h0 hwl hx
      rw [h1, h1, sampled_mirror hκ cl h0 hwl h p _ _ hr.1 hr.2, scaledPos_mirror w nw x h0 hx]
    have tr : ∀ (p : Nat → Nat → Col ℝ) x y, x < nw → y < nh →
        resized filter h w (fun x y => p y x) nh nw y x = resized filter w h p nw nh x y := by
      intro p x y hx hy
      obtain ⟨M, κ, cl, hκ, h1, h2⟩ := form (by omega) (by omega)
      rw [h1, h2, sampled_transpose]
    have fx' : ∀ (p : Nat → Nat → Col ℝ) x y, x < nw → y < nh →
        resized filter h w (fun x y => p (h - 1 - x) y) nh nw y x = resized filter h w p nh nw (nh - 1 - y) x := by
      intro p x y hx hy
      obtain ⟨M, κ, cl, hκ, h1, h2⟩ := form (by omega) (by omega)
      have hr := scaledPos_range h nh y hh hhl hy
      rw [h2, h2, sampled_mirror hκ cl hh hhl w p _ _ hr.1 hr.2, scaledPos_mirror h nh y hh hy]
    have fy : ∀ (p : Nat → Nat → Col ℝ) x y, x < nw → y < nh →
        resized filter w h (fun x y => p x (h - 1 - y)) nw nh x y = resized filter w h p nw nh x (nh - 1 - y) := by
      intro p x y hx hy
      rw [← tr (fun x y => p x (h - 1 - y)) x y hx hy, fx' (fun x y => p y x) x y hx hy, tr p x _ hx (by omega)]
    refine ⟨congrArg _ ((s1.congr fun x y hx hy => ?_).eq t1'), congrArg _ ((s2.congr fun x y hx hy => ?_).eq t2'),
      congrArg _ ((s3.congr fun x y hx hy => ?_).eq t3'), congrArg _ ((s4.congr fun x y hx hy => ?_).eq t4'),
      congrArg _ ((s5.congr fun x y hx hy => ?_).eq t5')⟩
    · exact fx px x y hx hy
    · exact fy px x y hx hy
    · rw [fx (fun x y => px x (h - 1 - y)) x y hx hy]
      exact fy px _ y (by omega) hy
    · rw [fx' (fun x y => px y x) y x hy hx]
      exact tr px y _ hy (by omega)
    · have := tr (fun x y => px (w - 1 - x) y) y x hy hx
      rw [this]
      exact fx px y x hy hx

/-! ## Rotating -/

theorem inside_iff {w h : Nat} (hw : w ≤ 1073741823) (hh : h ≤ 1073741823) (hw0 : 0 < w) (hh0 : 0 < h) (x y : ℝ) :
    inside w h x y ↔ (-(1 / 2) < x ∧ x < w - 1 / 2) ∧ (-(1 / 2) < y ∧ y < h - 1 / 2) := by
  have one : ∀ (n : Nat) (v : ℝ), n ≤ 1073741823 → 0 < n →
      ((0 ≤ Scalar.asI32 (Scalar.round v) ∧ Scalar.asI32 (Scalar.round v) < n) ↔
        (-(1 / 2) < v ∧ v < n - 1 / 2)) := by
    intro n v hn h0
    have h0' : (1 : ℝ) ≤ n := by exact_mod_cast h0
    rw [Exact.round_eq]
    split
    · rename_i hv
      have a : (0 : Int) ≤ ⌈v - 1 / 2⌉ ↔ -(1 / 2) < v := by
        rw [show (0 : Int) ≤ ⌈v - 1 / 2⌉ ↔ (-1 : Int) < ⌈v - 1 / 2⌉ by omega, Int.lt_ceil]
        push_cast
        constructor <;> intro h <;> linarith
      have c : ⌈v - 1 / 2⌉ ≤ 0 := by rw [Int.ceil_le]; push_cast; linarith
      constructor
      · intro h
        exact ⟨a.1 (by omega), by linarith⟩
      · intro h
        have := a.2 h.1
        omega
    · rename_i hv
      have hv : 0 ≤ v := not_lt.1 hv
      have a : ⌊v + 1 / 2⌋ < (n : Int) ↔ v < n - 1 / 2 := by
        rw [Int.floor_lt]
        push_cast
        constructor <;> intro h <;> linarith
      have c : (0 : Int) ≤ ⌊v + 1 / 2⌋ := by rw [Int.le_floor]; push_cast; linarith
      constructor
      · intro h
        exact ⟨by linarith, a.1 (by omega)⟩
      · intro h
        have := a.2 h.2
        omega
  unfold inside
  rw [← and_assoc, one w x hw hw0, one h y hh hh0]

theorem rotatedFrom_mirror (w h : Nat) (angle : ℝ) (x y : Nat) (hx : x < w) :
    rotatedFrom w h (-angle) x y =
      ((w : ℝ) - 1 - (rotatedFrom w h angle (w - 1 - x) y).1, (rotatedFrom w h angle (w - 1 - x) y).2) := by
  have a := C21_rotated_position w h (-angle) x y
  have c := C21_rotated_position w h angle (w - 1 - x) y
  simp only at a c
  rw [Nat.cast_sub (by omega), Nat.cast_sub (by omega)] at c
  have e : -(-angle) / 180 * 3.14159265358979323846264338327950288 =
      -(-angle / 180 * 3.14159265358979323846264338327950288) := by ring
  rw [e, Real.cos_neg, Real.sin_neg] at a
  ext
  · simp only
    push_cast at c
    linarith [a.1, c.1]
  · simp only
    push_cast at c
    linarith [a.2, c.2]

theorem rotatedFrom_transpose (w h : Nat) (angle : ℝ) (x y : Nat) :
    rotatedFrom h w (-angle) y x = ((rotatedFrom w h angle x y).2, (rotatedFrom w h angle x y).1) := by
  have a := C21_rotated_position h w (-angle) y x
  have c := C21_rotated_position w h angle x y
  simp only at a c
  have e : -(-angle) / 180 * 3.14159265358979323846264338327950288 =
      -(-angle / 180 * 3.14159265358979323846264338327950288) := by ring
  rw [e, Real.cos_neg, Real.sin_neg] at a
  ext
  · simp only
    linarith [a.1, c.2]
  · simp only
    linarith [a.2, c.1]

theorem rotated_form {filter : FilterMode} (hf : filter ≠ .Nearest) :
    ∃ M κ cl, Balanced M κ ∧ ∀ w h px angle bg x y, rotated filter w h px angle bg x y =
      open Classical in
      let p := rotatedFrom w h angle x y
      if inside w h p.1 p.2 then sampled M κ cl w h px p.1 p.2 else bg := by
  cases filter with
  | Nearest => exact absurd rfl hf
  | Bilinear => exact ⟨0, _, clamp01, linear_balanced, fun w h px angle bg x y => by
      simp only [rotated, bilinear_sampled]⟩
  | Bicubic => exact ⟨1, _, clamp01, cubic_balanced, fun w h px angle bg x y => by
      simp only [rotated, bicubic_sampled]⟩
  | Auto => exact ⟨1, _, clamp01, cubic_balanced, fun w h px angle bg x y => by
      simp only [rotated, bicubic_sampled]⟩
  | Lanczos3 => exact ⟨3, _, id, even_balanced 3 lanczos3 fun v hv => lanczos3_far (by push_cast at hv; linarith),
      fun w h px angle bg x y => by simp only [rotated, lanczos7_sampled]⟩

theorem rotated_mirror {filter : FilterMode} (hf : filter ≠ .Nearest) {w h : Nat} (hwl : w ≤ 1073741823)
    (hhl : h ≤ 1073741823) (px : Nat → Nat → Col ℝ) (angle : ℝ) (bg : Col ℝ) {x y : Nat} (hx : x < w)
    (hy : y < h) :
    rotated filter w h (fun x y => px (w - 1 - x) y) (-angle) bg x y =
      rotated filter w h px angle bg (w - 1 - x) y := by
  obtain ⟨M, κ, cl, hκ, form⟩ := rotated_form hf
  rw [form, form]
  simp only []
  rw [rotatedFrom_mirror w h angle x y hx]
  generalize rotatedFrom w h angle (w - 1 - x) y = p
  simp only []
  have hin : inside w h ((w : ℝ) - 1 - p.1) p.2 ↔ inside w h p.1 p.2 := by
    rw [inside_iff hwl hhl (by omega) (by omega), inside_iff hwl hhl (by omega) (by omega)]
    constructor <;> rintro ⟨⟨h1, h2⟩, h3⟩ <;> exact ⟨⟨by linarith, by linarith⟩, h3⟩
  by_cases hp : inside w h p.1 p.2
  · rw [if_pos (hin.2 hp), if_pos hp]
    have hwr : (w : ℝ) ≤ 1073741823 := by exact_mod_cast hwl
    have := (inside_iff hwl hhl (by omega) (by omega) p.1 p.2).1 hp
    rw [sampled_mirror hκ cl (by omega) hwl h px _ _ (by linarith [this.1.2]) (by linarith [this.1.1])]
    congr 1
    ring
  · rw [if_neg (fun h => hp (hin.1 h)), if_neg hp]

theorem rotated_transpose {filter : FilterMode} (hf : filter ≠ .Nearest) {w h : Nat} (px : Nat → Nat → Col ℝ)
    (angle : ℝ) (bg : Col ℝ) (x y : Nat) :
    rotated filter h w (fun x y => px y x) (-angle) bg y x = rotated filter w h px angle bg x y := by
  obtain ⟨M, κ, cl, hκ, form⟩ := rotated_form hf
  rw [form, form]
  simp only []
  rw [rotatedFrom_transpose w h angle x y]
  generalize rotatedFrom w h angle x y = p
  simp only []
  have hin : inside h w p.2 p.1 ↔ inside w h p.1 p.2 := by
    unfold inside; tauto
  by_cases hp : inside w h p.1 p.2
  · rw [if_pos (hin.2 hp), if_pos hp, sampled_transpose]
  · rw [if_neg (fun h => hp (hin.1 h)), if_neg hp]

theorem not_360 {a : ℝ} (h : |a - 360| ≥ 1 / 8388608) :
    (Scalar.abs (a -. lit 360) <. lit (1 / 8388608)) = false := by
  rw [Bool.eq_false_iff]; intro h'; rw [Exact.lt] at h'; ex_simp at h'; linarith

/-- C89: rotating the image turned by a quarter, half or three quarters gives the turned rotated image,
for every angle (all filters but the nearest pixel). -/
theorem C89_rotate_turns {b : PixelBuffer (Col ℝ)} (hb : WellFormed b) (angle : ℝ) (bg : Col ℝ)
    (filter : FilterMode) (hf : filter ≠ .Nearest) :
    (rotate90 Rgb.NONE b >>= (rotate · angle bg filter)) = (rotate b angle bg filter >>= rotate90 Rgb.NONE) ∧
    (rotate180 Rgb.NONE b >>= (rotate · angle bg filter)) = (rotate b angle bg filter >>= rotate180 Rgb.NONE) ∧
    (rotate270 Rgb.NONE b >>= (rotate · angle bg filter)) = (rotate b angle bg filter >>= rotate270 Rgb.NONE) := by
  obtain ⟨px, s⟩ := wf_shows (Rgb.NONE : Col ℝ) hb
  generalize b.width = w at s
  generalize b.height = h at s
  have hwl := s.size.width_le
  have hhl := s.size.height_le
  obtain ⟨f3, g3, t3⟩ := C14_rotate180 (Rgb.NONE : Col ℝ) s
  obtain ⟨f4, g4, t4⟩ := C14_rotate90 (Rgb.NONE : Col ℝ) s
  obtain ⟨f5, g5, t5⟩ := C14_rotate270 (Rgb.NONE : Col ℝ) s
  rw [g3, g4, g5]
  simp only [ok_bind]
  rcases Bool.eq_false_or_eq_true (Scalar.abs (angle -. lit 360) <. lit (1 / 8388608)) with hr | hr
  · rw [C21_rotate_360 b angle bg filter hr, C21_rotate_360 f3 angle bg filter hr,
      C21_rotate_360 f4 angle bg filter hr, C21_rotate_360 f5 angle bg filter hr]
    simp only [ok_bind]
    exact ⟨g4.symm, g3.symm, g5.symm⟩
  · obtain ⟨r, e, sr⟩ := C21_rotate s angle bg filter hr
    obtain ⟨r3, e3, s3⟩ := C21_rotate t3 angle bg filter hr
    obtain ⟨r4, e4, s4⟩ := C21_rotate t4 angle bg filter hr
    obtain ⟨r5, e5, s5⟩ := C21_rotate t5 angle bg filter hr
    obtain ⟨f3', g3', t3'⟩ := C14_rotate180 (Rgb.NONE : Col ℝ) sr
    obtain ⟨f4', g4', t4'⟩ := C14_rotate90 (Rgb.NONE : Col ℝ) sr
    obtain ⟨f5', g5', t5'⟩ := C14_rotate270 (Rgb.NONE : Col ℝ) sr
    rw [e, e3, e4, e5]
    simp only [ok_bind]
    rw [g3', g4', g5']
    have neg : angle = -(-angle) := (neg_neg angle).symm
    have fx : ∀ {w h : Nat} (a : ℝ) (p : Nat → Nat → Col ℝ) {x y}, w ≤ 1073741823 → h ≤ 1073741823 → x < w → y < h →
        rotated filter w h (fun x y => p (w - 1 - x) y) a bg x y = rotated filter w h p (-a) bg (w - 1 - x) y := by
      intro w h a p x y h1 h2 hx hy
      have := rotated_mirror hf h1 h2 p (-a) bg hx hy
      rwa [neg_neg] at this
    have tr : ∀ {w h : Nat} (a : ℝ) (p : Nat → Nat → Col ℝ) {x y},
        rotated filter h w (fun x y => p y x) a bg y x = rotated filter w h p (-a) bg x y := by
      intro w h a p x y
      have := rotated_transpose hf (w := w) (h := h) p (-a) bg x y
      rwa [neg_neg] at this
    refine ⟨congrArg _ ((s4.congr fun x y hx hy => ?_).eq t4'), congrArg _ ((s3.congr fun x y hx hy => ?_).eq t3'),
      congrArg _ ((s5.congr fun x y hx hy => ?_).eq t5')⟩
    · rw [fx angle (fun x y => px y x) hhl hwl hx hy, tr, neg_neg]
    · rw [fx angle (fun x y => px x (h - 1 - y)) hwl hhl hx hy, ← rotated_transpose hf, neg_neg,
        fx angle (fun x y => px y x) hhl hwl hy (by omega), tr, neg_neg]
    · have := tr (w := w) (h := h) angle (fun x y => px (w - 1 - x) y) (x := y) (y := x)
      rw [this, fx (-angle) px hwl hhl hy hx, neg_neg]

/-- C89: rotating the mirrored image the other way round gives the mirrored rotated image (all filters
but the nearest pixel; a rotation by +360 or -360 degrees is left out, because 360 is handled apart). -/
theorem C89_rotate_flips {b : PixelBuffer (Col ℝ)} (hb : WellFormed b) (angle : ℝ) (bg : Col ℝ)
    (filter : FilterMode) (hf : filter ≠ .Nearest) (h1 : |angle - 360| ≥ 1 / 8388608)
    (h2 : |-angle - 360| ≥ 1 / 8388608) :
    (flip_horizontal Rgb.NONE b >>= (rotate · (-angle) bg filter)) =
      (rotate b angle bg filter >>= flip_horizontal Rgb.NONE) ∧
    (flip_vertical Rgb.NONE b >>= (rotate · (-angle) bg filter)) =
      (rotate b angle bg filter >>= flip_vertical Rgb.NONE) := by
  obtain ⟨px, s⟩ := wf_shows (Rgb.NONE : Col ℝ) hb
  generalize b.width = w at s
  generalize b.height = h at s
  have hwl := s.size.width_le
  have hhl := s.size.height_le
  obtain ⟨f1, g1, t1⟩ := C13_flip_horizontal (Rgb.NONE : Col ℝ) s
  obtain ⟨f2, g2, t2⟩ := C13_flip_vertical (Rgb.NONE : Col ℝ) s
  rw [g1, g2]
  simp only [ok_bind]
  obtain ⟨r, e, sr⟩ := C21_rotate s angle bg filter (not_360 h1)
  obtain ⟨r1, e1, s1⟩ := C21_rotate t1 (-angle) bg filter (not_360 h2)
  obtain ⟨r2, e2, s2⟩ := C21_rotate t2 (-angle) bg filter (not_360 h2)
  obtain ⟨f1', g1', t1'⟩ := C13_flip_horizontal (Rgb.NONE : Col ℝ) sr
  obtain ⟨f2', g2', t2'⟩ := C13_flip_vertical (Rgb.NONE : Col ℝ) sr
  rw [e, e1, e2]
  simp only [ok_bind]
  rw [g1', g2']
  refine ⟨congrArg _ ((s1.congr fun x y hx hy => ?_).eq t1'), congrArg _ ((s2.congr fun x y hx hy => ?_).eq t2')⟩
  · exact rotated_mirror hf hwl hhl px angle bg hx hy
  · rw [← rotated_transpose hf (fun x y => px x (h - 1 - y)) (-angle) bg x y,
      rotated_mirror hf hhl hwl (fun x y => px y x) (-angle) bg hy hx,
      rotated_transpose hf px angle bg x (h - 1 - y)]

end
end D10
