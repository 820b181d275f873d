import Verif.Lemmas.Coords
import Verif.Lemmas.Histogram
import Verif.Props.ColorOps
import Verif.Props.ColorRange
import Verif.Props.Smooth

/-!
# Equalisation, contrast stretching and level balance (C44, C45, C69)
-/

namespace D10
open Spec
open Scalar (isNan clamp toInt)
open LawfulScalar

section
variable {F : Type} [Scalar F]

theorem f32_EPSILON_eq : (f32_EPSILON : F) = lit (1 / 2 ^ 23) := by
  unfold f32_EPSILON; congr 1

variable [LawfulCast F]

theorem level_lt (v : F) : level v < 256 := by
  have := LawfulCast.toInt_range 0 255 (Scalar.round (v *. lit 255)) (by norm_num) (by norm_num)
  unfold level; omega

theorem levelDown_lt (v : F) : levelDown v < 256 := by
  have := LawfulCast.toInt_range 0 255 (v *. lit 255) (by norm_num) (by norm_num)
  unfold levelDown; omega

/-- The level that is counted is the level that is looked up. -/
theorem asUsize_clamp (v : F) :
    Scalar.asUsize (clamp (lit 0) (lit 255) (Scalar.round (v *. lit 255))) = level v := by
  have := LawfulCast.toInt_clamp 18446744073709551615 255 (Scalar.round (v *. lit 255))
    (by norm_num) (by norm_num)
  unfold Scalar.asUsize level
  rw [← Nat.cast_ofNat (R := ℚ) (n := 255)] at *
  rw [this]; rfl

theorem asU8_clamp (v : F) :
    Scalar.asU8 (clamp (lit 0) (lit 255) (v *. lit 255)) = levelDown v := by
  have := LawfulCast.toInt_clamp 255 255 (v *. lit 255) (by norm_num) (by norm_num)
  unfold Scalar.asU8 levelDown
  rw [← Nat.cast_ofNat (R := ℚ) (n := 255)] at *
  rw [this]; rfl

/-! ## C44 -/

/-- C44: the look-up table of a channel is built without a panic and holds the stretched cumulative
shares of `equalTable`. -/
theorem C44_table {b : PixelBuffer (Col F)} {w h px} (sh : Shows b w h px) (i : Nat)
    (sel : Col F → F) (hsel : ∀ c : Col F, index c.data i = .ok (sel c)) :
    channel_histogram b i =
      .ok ((List.range 256).map (equalTable (rows w h fun x y => sel (px x y)))) := by
  have hlen : (rows w h fun x y => sel (px x y)).length = w * h := rows_length ..
  have hcount : countChannel b i = .ok ((List.range 256).map fun k =>
      times ((rows w h fun x y => sel (px x y)).countP (level · = k)) (lit 1)) := by
    unfold countChannel
    rw [tally_zero 256 (fun c => level (sel c)) (lit 1) b.data (fun a _ => level_lt _)]
    · congr 1
      apply List.map_congr_left
      intro k _
      rw [sh.pixels, ← rows_map (f := sel), List.countP_map]
      rfl
    · intro a _ t
      rw [hsel, ok_bind]
      simp only []
      rw [asUsize_clamp]
  unfold channel_histogram
  have hm := sh.size.mul_le
  rw [hcount, ok_bind, sh.width, sh.height, u32_ok (by omega), ok_bind]
  simp only []
  rw [cumulate_eq]
  show (Except.ok _ : R _) = _
  congr 1
  have hshare : (List.range ((List.range 256).map fun k =>
      times ((rows w h fun x y => sel (px x y)).countP (level · = k)) (lit 1 : F)).length).map
      (fun k => (((List.range 256).map fun k =>
        times ((rows w h fun x y => sel (px x y)).countP (level · = k)) (lit 1 : F)).take
          (k + 1)).foldl (· +. ·) (lit 0) /. Scalar.ofNat (w * h)) =
      (List.range 256).map (share (rows w h fun x y => sel (px x y))) := by
    rw [List.length_map, List.length_range]
    apply List.map_congr_left
    intro k hk
    rw [take_map_range _ _ _ (by have := List.mem_range.1 hk; omega)]
    unfold share upTo addUp
    rw [hlen]; rfl
  rw [hshare]
  unfold normalizeTable
  simp only []
  rw [f32_EPSILON_eq, f32_MAX_eq]
  unfold equalTable
  simp only []
  split
  · rw [List.map_map]; rfl
  · rw [List.map_map]; rfl

theorem pick_value_ok (t : Nat → F) (v : F) :
    pick_value ((List.range 256).map t) v = .ok (t (level v)) :=
  index_map_range 256 _ (level_lt v) t

/-- C44: in every mode equalisation keeps the size, never panics, and replaces the channels it works
on by their values in the table of that channel; hue (and the channel not named by the mode) and alpha
go through unchanged. -/
theorem C44_equalize {b : PixelBuffer (Col F)} {w h px} (sh : Shows b w h px) (mode : EqualizeMode) :
    ∃ b', equalize b mode = .ok b' ∧ Shows b' w h (equalisedPixel w h px mode) := by
  have i0 : ∀ c : Col F, index c.data 0 = .ok c.c0 := fun _ => rfl
  have i1 : ∀ c : Col F, index c.data 1 = .ok c.c1 := fun _ => rfl
  have i2 : ∀ c : Col F, index c.data 2 = .ok c.c2 := fun _ => rfl
  have conv : ∀ sp : Space, Shows (b.convert .rgb sp) w h fun x y => D10.convert .rgb sp (px x y) :=
    fun sp => C07_map_colors sh (D10.convert .rgb sp)
  cases mode
  · show ∃ b', equalize_rgb b = .ok b' ∧ _
    unfold equalize_rgb
    rw [C44_table sh 0 _ i0, ok_bind, C44_table sh 1 _ i1, ok_bind, C44_table sh 2 _ i2, ok_bind]
    refine map_colors_R_ok sh _ (fun c => Rgb.new_with_alpha
      (equalised (rows w h fun x y => (px x y).c0) c.c0)
      (equalised (rows w h fun x y => (px x y).c1) c.c1)
      (equalised (rows w h fun x y => (px x y).c2) c.c2) c.alpha) ?_
    intro x y _ _
    rw [pick_value_ok, ok_bind, pick_value_ok, ok_bind, pick_value_ok, ok_bind]
    rfl
  · show ∃ b', equalize_srgb b = .ok b' ∧ _
    unfold equalize_srgb
    simp only []
    rw [C44_table (conv .srgb) 0 _ i0, ok_bind, C44_table (conv .srgb) 1 _ i1, ok_bind,
      C44_table (conv .srgb) 2 _ i2, ok_bind]
    refine map_colors_R_ok (conv .srgb) _ (fun c => Srgb.to_rgb (Srgb.new_with_alpha
      (equalised (rows w h fun x y => (D10.convert .rgb .srgb (px x y)).c0) c.c0)
      (equalised (rows w h fun x y => (D10.convert .rgb .srgb (px x y)).c1) c.c1)
      (equalised (rows w h fun x y => (D10.convert .rgb .srgb (px x y)).c2) c.c2) c.alpha)) ?_
    intro x y _ _
    rw [pick_value_ok, ok_bind, pick_value_ok, ok_bind, pick_value_ok, ok_bind]
    rfl
  · show ∃ b', equalize_saturation b = .ok b' ∧ _
    unfold equalize_saturation
    simp only []
    rw [C44_table (conv .hsl) 1 _ i1, ok_bind]
    refine map_colors_R_ok (conv .hsl) _ (fun c => Hsl.to_rgb ⟨c.c0,
      equalised (rows w h fun x y => (D10.convert .rgb .hsl (px x y)).c1) c.c1, c.c2, c.alpha⟩) ?_
    intro x y _ _
    rw [pick_value_ok, ok_bind]
    rfl
  · show ∃ b', equalize_lightness b = .ok b' ∧ _
    unfold equalize_lightness
    simp only []
    rw [C44_table (conv .hsl) 2 _ i2, ok_bind]
    refine map_colors_R_ok (conv .hsl) _ (fun c => Hsl.to_rgb ⟨c.c0, c.c1,
      equalised (rows w h fun x y => (D10.convert .rgb .hsl (px x y)).c2) c.c2, c.alpha⟩) ?_
    intro x y _ _
    rw [pick_value_ok, ok_bind]
    rfl
  · show ∃ b', equalize_saturation_lightness b = .ok b' ∧ _
    unfold equalize_saturation_lightness
    simp only []
    rw [C44_table (conv .hsl) 1 _ i1, ok_bind, C44_table (conv .hsl) 2 _ i2, ok_bind]
    refine map_colors_R_ok (conv .hsl) _ (fun c => Hsl.to_rgb ⟨c.c0,
      equalised (rows w h fun x y => (D10.convert .rgb .hsl (px x y)).c1) c.c1,
      equalised (rows w h fun x y => (D10.convert .rgb .hsl (px x y)).c2) c.c2, c.alpha⟩) ?_
    intro x y _ _
    rw [pick_value_ok, ok_bind, pick_value_ok, ok_bind]
    rfl

end

/-! ### Exact arithmetic -/

section
variable [Junk]

theorem times_eq (n : Nat) (x : ℝ) : times n x = n * x := by
  unfold times
  induction n with
  | zero => simp; ex_simp
  | succ n ih => rw [Function.iterate_succ_apply', ih]; ex_simp; push_cast; ring

omit [Junk] in
theorem count_split {α : Type} (f : α → Nat) (vs : List α) (k : Nat) :
    vs.countP (f · ≤ k + 1) = vs.countP (f · ≤ k) + vs.countP (f · = k + 1) := by
  induction vs with
  | nil => rfl
  | cons a as ih =>
    simp only [List.countP_cons, decide_eq_true_eq] at *
    split_ifs <;> omega

theorem upTo_count (f : ℝ → Nat) (vs : List ℝ) (x : ℝ) (k : Nat) :
    upTo (fun j => times (vs.countP (f · = j)) x) k = (vs.countP (f · ≤ k) : ℝ) * x := by
  unfold upTo
  rw [addUp_sum]
  induction k with
  | zero => simp [times_eq]
  | succ k ih =>
    rw [List.range_succ, List.map_append, List.sum_append, ih]
    simp only [List.map_cons, List.map_nil, List.sum_cons, List.sum_nil, times_eq, add_zero]
    rw [count_split]; push_cast; ring

omit [Junk] in
theorem count_all {α : Type} (f : α → Nat) (vs : List α) (hf : ∀ v, f v < 256) :
    vs.countP (f · ≤ 255) = vs.length := by
  rw [List.countP_eq_length]
  intro a _
  have := hf a
  simp; omega

omit [Junk] in
theorem count_mono {α : Type} (f : α → Nat) (vs : List α) {j k : Nat} (h : j ≤ k) :
    vs.countP (f · ≤ j) ≤ vs.countP (f · ≤ k) := by
  apply List.countP_mono_left
  intro a _ ha
  simp at *; omega

theorem foldl_max_mono (f : Nat → ℝ) (n : Nat) (s : ℝ) (h : ∀ j k, j ≤ k → k ≤ n → f j ≤ f k) :
    ((List.range (n + 1)).map f).foldl Scalar.max s = max s (f n) := by
  induction n with
  | zero => simp [Exact.max]
  | succ n ih =>
    rw [List.range_succ, List.map_append, List.foldl_append, ih (fun j k a b => h j k a (by omega))]
    simp only [List.map_cons, List.map_nil, List.foldl_cons, List.foldl_nil, Exact.max]
    rw [max_assoc, max_eq_right (h n (n + 1) (by omega) le_rfl)]

theorem foldl_min_mono (f : Nat → ℝ) (n : Nat) (s : ℝ) (h : ∀ j k, j ≤ k → k ≤ n → f j ≤ f k) :
    ((List.range (n + 1)).map f).foldl Scalar.min s = min s (f 0) := by
  induction n with
  | zero => simp [Exact.min]
  | succ n ih =>
    rw [List.range_succ, List.map_append, List.foldl_append, ih (fun j k a b => h j k a (by omega))]
    simp only [List.map_cons, List.map_nil, List.foldl_cons, List.foldl_nil, Exact.min]
    rw [min_assoc, min_eq_left (h 0 (n + 1) (by omega) le_rfl)]

theorem share_eq (vs : List ℝ) (hne : vs ≠ []) (k : Nat) :
    share vs k = (vs.countP (level · ≤ k) : ℝ) / vs.length := by
  have h0 : (vs.length : ℝ) ≠ 0 := by
    have := List.length_pos_iff.2 hne
    exact_mod_cast this.ne'
  unfold share
  rw [show (lit (vs.length : ℚ) : ℝ) = vs.length by ex_simp, Exact.div h0]
  have := upTo_count level vs 1 k
  rw [show (lit (1 : ℚ) : ℝ) = 1 by ex_simp, this, mul_one]

/-- C44 in exact arithmetic: with `below k` the number of values with a level up to `k`, the new value
for level `k` is `(below k - below 0) / (n - below 0)`, and 0 if nearly all (at least 1 - 2^-23 of the)
values have level 0. -/
theorem C44_exact (vs : List ℝ) (hne : vs ≠ []) (k : Nat) :
    let below := fun k => (vs.countP (level · ≤ k) : ℝ)
    equalTable vs k =
      if (vs.length - below 0) / vs.length < 1 / 2 ^ 23 then 0
      else (below k - below 0) / (vs.length - below 0) := by
  intro below
  have hpos : (0 : ℝ) < vs.length := by
    have := List.length_pos_iff.2 hne
    exact_mod_cast this
  have hmono : ∀ j k, j ≤ k → k ≤ 255 → share vs j ≤ share vs k := by
    intro j k hjk _
    rw [share_eq vs hne, share_eq vs hne]
    apply div_le_div_of_nonneg_right _ hpos.le
    exact_mod_cast count_mono level vs hjk
  have h255 : share vs 255 = 1 := by
    rw [share_eq vs hne, count_all level vs level_lt, div_self hpos.ne']
  have h0 : share vs 0 = below 0 / vs.length := share_eq vs hne 0
  have h0le : share vs 0 ≤ 1 := by rw [← h255]; exact hmono 0 255 (by omega) le_rfl
  have hhi : ((List.range 256).map (share vs)).foldl Scalar.max (lit 0) = 1 := by
    rw [foldl_max_mono _ 255 _ hmono, h255]; ex_simp; norm_num
  have hlo : ((List.range 256).map (share vs)).foldl Scalar.min (lit greatest) = below 0 / vs.length := by
    rw [foldl_min_mono _ 255 _ hmono, ← h0, min_eq_right]
    refine le_trans h0le ?_
    rw [Exact.lit]; unfold greatest; norm_num
  unfold equalTable
  simp only []
  rw [hhi, hlo]
  have e : (1 : ℝ) -. below 0 / vs.length = (vs.length - below 0) / vs.length := by
    ex_simp; rw [sub_div, div_self hpos.ne']
  rw [e]
  have hc : (((vs.length - below 0) / vs.length <. lit (1 / 2 ^ 23)) = true) ↔
      (vs.length - below 0) / vs.length < 1 / 2 ^ 23 := by
    rw [Exact.lt, Exact.lit]; norm_num
  by_cases h : (vs.length - below 0) / vs.length < 1 / 2 ^ 23
  · rw [if_pos (hc.2 h), if_pos h]; ex_simp
  · rw [if_neg (mt hc.1 h), if_neg h]
    have hd : (vs.length - below 0) / vs.length ≠ 0 := by
      intro h'; rw [h'] at h; norm_num at h
    have hd' : vs.length - below 0 ≠ 0 := by
      intro h'; rw [h', zero_div] at hd; exact hd rfl
    rw [Exact.div hd, Exact.sub, share_eq vs hne, ← sub_div, div_div_div_cancel_right₀ hpos.ne']

/-- C44: the new values increase with the level, start with 0, end with 1 (unless the channel has
only one level, when they are all 0) and are in [0, 1]. -/
theorem C44_monotone (vs : List ℝ) (hne : vs ≠ []) :
    (∀ j k, j ≤ k → k ≤ 255 → equalTable vs j ≤ equalTable vs k) ∧
    equalTable vs 0 = 0 ∧
    (equalTable vs 255 = 1 ∨ ∀ k ≤ 255, equalTable vs k = 0) ∧
    (∀ k ≤ 255, 0 ≤ equalTable vs k ∧ equalTable vs k ≤ 1) := by
  have hpos : (0 : ℝ) < vs.length := by
    have := List.length_pos_iff.2 hne
    exact_mod_cast this
  have hall : vs.countP (level · ≤ 255) = vs.length := count_all level vs level_lt
  by_cases h : (vs.length - (vs.countP (level · ≤ 0) : ℝ)) / vs.length < 1 / 2 ^ 23
  · have z : ∀ k, equalTable vs k = 0 := by
      intro k; rw [C44_exact vs hne k]; simp only []; rw [if_pos h]
    simp [z]
  · have z : ∀ k, equalTable vs k = ((vs.countP (level · ≤ k) : ℝ) - vs.countP (level · ≤ 0)) /
        (vs.length - vs.countP (level · ≤ 0)) := by
      intro k; rw [C44_exact vs hne k]; simp only []; rw [if_neg h]
    have hd : 0 < vs.length - (vs.countP (level · ≤ 0) : ℝ) := by
      by_contra hn
      apply h
      refine lt_of_le_of_lt (div_nonpos_of_nonpos_of_nonneg (_root_.not_lt.1 hn) hpos.le) (by norm_num)
    have mono : ∀ j k, j ≤ k → k ≤ 255 → equalTable vs j ≤ equalTable vs k := by
      intro j k hjk _
      rw [z, z]
      apply div_le_div_of_nonneg_right _ hd.le
      have : (vs.countP (level · ≤ j) : ℝ) ≤ vs.countP (level · ≤ k) := by
        exact_mod_cast count_mono level vs hjk
      linarith
    have e0 : equalTable vs 0 = 0 := by rw [z, sub_self, zero_div]
    have e1 : equalTable vs 255 = 1 := by rw [z, hall, div_self hd.ne']
    refine ⟨mono, e0, .inl e1, ?_⟩
    intro k hk
    exact ⟨by rw [← e0]; exact mono 0 k (by omega) hk, by rw [← e1]; exact mono k 255 hk le_rfl⟩

/-- The level of a value in [0, 1], in exact arithmetic: the integer nearest to `255·v`. -/
theorem level_eq (v : ℝ) (h0 : 0 ≤ v) (h1 : v ≤ 1) : (level v : Int) = ⌊255 * v + 1 / 2⌋ := by
  have hr : Scalar.round (v *. lit 255) = ((⌊255 * v + 1 / 2⌋ : Int) : ℝ) := by
    rw [show v *. lit 255 = 255 * v by ex_simp; ring]
    show (if 255 * v < 0 then _ else _) = _
    rw [if_neg (by linarith)]
  have hf : 0 ≤ ⌊255 * v + 1 / 2⌋ := Int.floor_nonneg.2 (by linarith)
  have hf' : ⌊255 * v + 1 / 2⌋ ≤ 255 := by
    have : ⌊255 * v + 1 / 2⌋ < 256 := by rw [Int.floor_lt]; push_cast; linarith
    omega
  unfold level
  rw [hr]
  have : toInt 0 255 ((⌊255 * v + 1 / 2⌋ : Int) : ℝ) = ⌊255 * v + 1 / 2⌋ := by
    rw [Exact.toInt_int]; omega
  rw [this]; omega

/-- C44: equalisation does not reverse the order of channel values. -/
theorem C44_order_kept (vs : List ℝ) (hne : vs ≠ []) (u v : ℝ) (h0 : 0 ≤ u) (h : u ≤ v)
    (h1 : v ≤ 1) : equalised vs u ≤ equalised vs v := by
  have hl : level u ≤ level v := by
    have a := level_eq u h0 (le_trans h h1)
    have b := level_eq v (le_trans h0 h) h1
    have : ⌊255 * u + 1 / 2⌋ ≤ ⌊255 * v + 1 / 2⌋ := Int.floor_mono (by linarith)
    omega
  have := level_lt v
  exact (C44_monotone vs hne).1 _ _ hl (by omega)

end

/-! ## C45 -/

section
variable {F : Type} [Scalar F] [LawfulCast F]

omit [LawfulCast F] in
theorem shares_rows {b : PixelBuffer (Col F)} {w h px} (sh : Shows b w h px) (sel : Col F → F) :
    (fun k => times (b.data.countP (fun c => levelDown (sel c) = k))
      (lit 1 /. Scalar.ofNat b.data.length : F)) = shares (rows w h fun x y => sel (px x y)) := by
  funext k
  unfold shares
  rw [sh.pixels, ← rows_map (f := sel), List.countP_map, List.length_map]
  rfl

theorem get_color_values_eq {b : PixelBuffer (Col F)} {w h px} (sh : Shows b w h px) :
    get_color_values b =
      .ok ((List.range 256).map (shares (rows w h fun x y => gray (px x y)))) := by
  rw [← shares_rows sh gray]
  unfold get_color_values
  exact tally_zero 256 (fun c => levelDown (gray c)) _ b.data (fun a _ => levelDown_lt _) _
    (fun a _ t => by
      have : get_color_value a = levelDown (gray a) := asU8_clamp (gray a)
      simp only [this])

/-- C45: contrast stretching never panics and keeps the size. With the black and the white point of
the gray values at a thousandth of the threshold, the image is left as it is if the black point is not
above 0 and the white point not below 1; otherwise every pixel is moved by the level operation with
these points and gamma 1. -/
theorem C45_stretch_contrast {b : PixelBuffer (Col F)} {w h px} (sh : Shows b w h px) (t : F) :
    ∃ bp wp b', IsBlackPoint (rows w h fun x y => gray (px x y)) (t /. lit 1000) bp ∧
      IsWhitePoint (rows w h fun x y => gray (px x y)) (t /. lit 1000) wp ∧
      stretch_contrast b t = .ok b' ∧
      Shows b' w h (fun x y => if (lit 0 <. bp) = true ∨ (wp <. lit 1) = true
        then Rgb.with_level (px x y) bp wp (lit 1) else px x y) := by
  have hmin := min_scan (shares (rows w h fun x y => gray (px x y))) (t /. lit 1000)
  have hmax := max_scan (shares (rows w h fun x y => gray (px x y))) (t /. lit 1000)
  unfold stretch_contrast
  rw [get_color_values_eq sh, ok_bind]
  simp only [] at *
  generalize get_min_value _ (t /. lit 1000) = bp at *
  generalize get_max_value _ (t /. lit 1000) = wp at *
  by_cases hc : (lit 0 <. bp) = true ∨ (wp <. lit 1) = true
  · refine ⟨bp, wp, b.map_colors fun c => Rgb.with_level c bp wp (lit 1), hmin, hmax, ?_, ?_⟩
    rotate_left
    · simp only [if_pos hc]
      exact C07_map_colors sh fun c => Rgb.with_level c bp wp (lit 1)
    · exact if_pos (by simpa using hc)
  · refine ⟨bp, wp, b, hmin, hmax, ?_, ?_⟩
    · exact if_neg (by simpa using hc)
    · simp only [if_neg hc]; exact sh

/-- C45: alpha is kept. -/
theorem C45_alpha {b : PixelBuffer (Col F)} {w h px} (sh : Shows b w h px) (t : F) :
    ∃ b' px', stretch_contrast b t = .ok b' ∧ Shows b' w h px' ∧
      ∀ x y, (px' x y).alpha = (px x y).alpha := by
  obtain ⟨bp, wp, b', _, _, h, sh'⟩ := C45_stretch_contrast sh t
  refine ⟨b', _, h, sh', ?_⟩
  intro x y
  split
  · rfl
  · rfl

omit [LawfulCast F] in
/-- The point that has the property of the black point is the only one. -/
theorem IsBlackPoint.unique {vs : List F} {t p q : F} (hp : IsBlackPoint vs t p)
    (hq : IsBlackPoint vs t q) : p = q := by
  rcases hp with ⟨k, h1, h2, h3, rfl⟩ | ⟨h3, rfl⟩ <;>
    rcases hq with ⟨m, g1, g2, g3, rfl⟩ | ⟨g3, rfl⟩
  · have : k = m := by
      rcases Nat.lt_trichotomy k m with h | h | h
      · rw [g3 k h] at h2; cases h2
      · exact h
      · rw [h3 m h] at g2; cases g2
    rw [this]
  · rw [g3 k h1] at h2; cases h2
  · rw [h3 m g1] at g2; cases g2
  · rfl

omit [LawfulCast F] in
theorem IsWhitePoint.unique {vs : List F} {t p q : F} (hp : IsWhitePoint vs t p)
    (hq : IsWhitePoint vs t q) : p = q := by
  rcases hp with ⟨k, h1, h2, h3, rfl⟩ | ⟨h3, rfl⟩ <;>
    rcases hq with ⟨m, g1, g2, g3, rfl⟩ | ⟨g3, rfl⟩
  · have : k = m := by
      rcases Nat.lt_trichotomy k m with h | h | h
      · rw [h3 m h g1] at g2; cases g2
      · exact h
      · rw [g3 k h h1] at h2; cases h2
    rw [this]
  · rw [g3 k h1] at h2; cases h2
  · rw [h3 m g1] at g2; cases g2
  · rfl

/-! ## C69 -/

theorem balanceValues_eq {b : PixelBuffer (Col F)} {w h px} (sh : Shows b w h px) (sp : Space)
    (i : Nat) (hi : i < 3) :
    balanceValues sp b i = .ok ((List.range 256).map
      (shares (rows w h fun x y => channel (D10.convert .rgb sp (px x y)) i))) := by
  rw [← shares_rows sh fun c => channel (D10.convert .rgb sp c) i]
  have hsel : ∀ c : Col F, index c.data i = .ok (channel c i) := by
    intro c
    match i, hi with
    | 0, _ => rfl
    | 1, _ => rfl
    | 2, _ => rfl
  unfold balanceValues
  exact tally_zero 256 (fun c => levelDown (channel (D10.convert .rgb sp c) i)) _ b.data
    (fun a _ => levelDown_lt _) _
    (fun a _ t => by
      simp only [hsel, ok_bind, asU8_clamp])

omit [LawfulCast F] in
theorem level_channel_eq (v b w : F) : level_channel v b w = balancedChannel b w v := by
  unfold level_channel balancedChannel
  rw [f32_EPSILON_eq]

theorem balance_buffer_eq {b : PixelBuffer (Col F)} {w h px} (sh : Shows b w h px) (sp : Space)
    (S N : Nat) (hSN : (S = 0 ∧ N = 3) ∨ (S = 1 ∧ N = 2) ∨ (S = 0 ∧ N = 2)) (t : F)
    (bp wp : Nat → F)
    (hb : ∀ i < 3, get_min_value ((List.range 256).map (shares (rows w h fun x y =>
      channel (D10.convert .rgb sp (px x y)) i))) (t /. lit 1000) = bp i)
    (hw : ∀ i < 3, get_max_value ((List.range 256).map (shares (rows w h fun x y =>
      channel (D10.convert .rgb sp (px x y)) i))) (t /. lit 1000) = wp i) :
    ∃ b', balance_buffer sp S N b t = .ok b' ∧ Shows b' w h (fun x y =>
      let c := D10.convert .rgb sp (px x y)
      let move := fun i v => if S ≤ i ∧ i < S + N then balancedChannel (bp i) (wp i) v else v
      to_rgb sp ⟨move 0 c.c0, move 1 c.c1, move 2 c.c2, c.alpha⟩) := by
  unfold balance_buffer
  simp only [level_channel_eq]
  rw [mapM_ok _ _ (fun i => (bp (S + i), wp (S + i))), ok_bind]
  rotate_left
  · intro i hi
    have hi : S + i < 3 := by have := List.mem_range.1 hi; omega
    rw [balanceValues_eq sh sp _ hi, ok_bind, hb _ hi, hw _ hi]; rfl
  refine map_colors_R_ok sh _ (fun p =>
      let c := D10.convert .rgb sp p
      let move := fun i v => if S ≤ i ∧ i < S + N then balancedChannel (bp i) (wp i) v else v
      to_rgb sp ⟨move 0 c.c0, move 1 c.c1, move 2 c.c2, c.alpha⟩) ?_
  intro x y _ _
  rcases hSN with ⟨rfl, rfl⟩ | ⟨rfl, rfl⟩ | ⟨rfl, rfl⟩ <;> rfl

/-- C69: in every mode balance never panics, keeps the size, and moves the channels of the mode with
the black and white points of those channels. -/
theorem C69_balance {b : PixelBuffer (Col F)} {w h px} (sh : Shows b w h px) (mode : BalanceMode)
    (t : F) :
    ∃ bp wp : Nat → F, ∃ b',
      (∀ i < 3, balanced mode i = true →
        let vs := rows w h fun x y => channel (D10.convert .rgb (balanceSpace mode) (px x y)) i
        IsBlackPoint vs (t /. lit 1000) (bp i) ∧ IsWhitePoint vs (t /. lit 1000) (wp i)) ∧
      balance b mode t = .ok b' ∧
      Shows b' w h (fun x y => balancedPixel mode bp wp (px x y)) := by
  have key := fun i => And.intro
    (min_scan (shares (rows w h fun x y =>
      channel (D10.convert .rgb (balanceSpace mode) (px x y)) i)) (t /. lit 1000))
    (max_scan (shares (rows w h fun x y =>
      channel (D10.convert .rgb (balanceSpace mode) (px x y)) i)) (t /. lit 1000))
  have main := fun S N hSN => balance_buffer_eq sh (balanceSpace mode) S N hSN t _ _
    (fun _ _ => rfl) (fun _ _ => rfl)
  refine ⟨fun i => get_min_value ((List.range 256).map (shares (rows w h fun x y =>
      channel (D10.convert .rgb (balanceSpace mode) (px x y)) i))) (t /. lit 1000),
    fun i => get_max_value ((List.range 256).map (shares (rows w h fun x y =>
      channel (D10.convert .rgb (balanceSpace mode) (px x y)) i))) (t /. lit 1000), ?_⟩
  cases mode
  · obtain ⟨b', h1, h2⟩ := main 0 3 (by omega)
    exact ⟨b', fun i _ _ => key i, h1, h2⟩
  · obtain ⟨b', h1, h2⟩ := main 0 3 (by omega)
    exact ⟨b', fun i _ _ => key i, h1, h2⟩
  · obtain ⟨b', h1, h2⟩ := main 1 2 (by omega)
    exact ⟨b', fun i _ _ => key i, h1, h2⟩
  · obtain ⟨b', h1, h2⟩ := main 1 2 (by omega)
    exact ⟨b', fun i _ _ => key i, h1, h2⟩
  · obtain ⟨b', h1, h2⟩ := main 0 2 (by omega)
    exact ⟨b', fun i _ _ => key i, h1, h2⟩

omit [LawfulCast F] in
/-- C69: alpha in [0, 1] is kept by every mode. -/
theorem C69_alpha [LawfulScalar F] (mode : BalanceMode) (bp wp : Nat → F) (p : Col F)
    (h0 : (lit 0 <=. p.alpha) = true) (h1 : (p.alpha <=. lit 1) = true) :
    (balancedPixel mode bp wp p).alpha = p.alpha := by
  have hc := C24_conversions_keep_alpha .rgb (balanceSpace mode) p h0 h1
  unfold balancedPixel
  simp only []
  refine (to_rgb_alpha _ _ ?_).trans hc
  show clamp01 (D10.convert .rgb (balanceSpace mode) p).alpha = _
  rw [hc]; exact clamp01_id h0 h1

end

/-! ### Exact arithmetic -/

section
variable [Junk]

theorem upTo_shares (vs : List ℝ) (hne : vs ≠ []) (k : Nat) :
    upTo (shares vs) k = (vs.countP (levelDown · ≤ k) : ℝ) / vs.length := by
  have h0 : (vs.length : ℝ) ≠ 0 := by
    have := List.length_pos_iff.2 hne
    exact_mod_cast this.ne'
  have e : (lit 1 /. lit (vs.length : ℚ) : ℝ) = 1 / vs.length := by
    rw [show (lit (vs.length : ℚ) : ℝ) = vs.length by ex_simp, Exact.div h0]; ex_simp
  have := upTo_count levelDown vs (1 / vs.length) k
  unfold shares
  rw [e, this]; ring

theorem downTo_shares (vs : List ℝ) (hne : vs ≠ []) (k : Nat) (hk : k < 256) :
    downTo (shares vs) k = (vs.countP (k ≤ levelDown ·) : ℝ) / vs.length := by
  have h0 : (vs.length : ℝ) ≠ 0 := by
    have := List.length_pos_iff.2 hne
    exact_mod_cast this.ne'
  have e : (lit 1 /. lit (vs.length : ℚ) : ℝ) = 1 / vs.length := by
    rw [show (lit (vs.length : ℚ) : ℝ) = vs.length by ex_simp, Exact.div h0]; ex_simp
  unfold shares
  rw [e]
  unfold downTo
  rw [addUp_sum]
  have key : ∀ m, m ≤ 255 →
      ((List.range (m + 1)).map fun j => times (vs.countP (levelDown · = 255 - j)) (1 / vs.length : ℝ)).sum =
        (vs.countP (255 - m ≤ levelDown ·) : ℝ) * (1 / vs.length) := by
    intro m hm
    induction m with
    | zero =>
      have : vs.countP (255 - 0 ≤ levelDown ·) = vs.countP (levelDown · = 255 - 0) := by
        apply List.countP_congr
        intro v _
        have := levelDown_lt v
        simp; omega
      rw [this]; simp [times_eq]
    | succ m ih =>
      rw [List.range_succ, List.map_append, List.sum_append, ih (by omega)]
      simp only [List.map_cons, List.map_nil, List.sum_cons, List.sum_nil, times_eq, add_zero]
      have : vs.countP (255 - (m + 1) ≤ levelDown ·) =
          vs.countP (255 - m ≤ levelDown ·) + vs.countP (levelDown · = 255 - (m + 1)) := by
        clear ih e h0 hne
        induction vs with
        | nil => rfl
        | cons a as ih =>
          simp only [List.countP_cons, decide_eq_true_eq] at *
          split_ifs <;> omega
      rw [this]; push_cast; ring
  have := key (255 - k) (by omega)
  rw [show 255 - k + 1 = 256 - k by omega, show 255 - (255 - k) = k by omega] at this
  rw [this]; ring

/-- The black point in exact arithmetic: for a threshold below 1 it is the lowest level at which the
values up to this level are more than the share `t` of all values. -/
theorem C45_black_point (vs : List ℝ) (hne : vs ≠ []) (t p : ℝ) (ht : t < 1) :
    IsBlackPoint vs t p ↔ ∃ k : Nat, k < 256 ∧ p = k / 255 ∧
      t * vs.length < vs.countP (levelDown · ≤ k) ∧
      ∀ j < k, (vs.countP (levelDown · ≤ j) : ℝ) ≤ t * vs.length := by
  have hpos : (0 : ℝ) < vs.length := by
    have := List.length_pos_iff.2 hne
    exact_mod_cast this
  have hlt : ∀ k, (t <. upTo (shares vs) k) = true ↔ t * vs.length < vs.countP (levelDown · ≤ k) := by
    intro k; rw [Exact.lt, upTo_shares vs hne, lt_div_iff₀ hpos]
  have hf : ∀ k, (t <. upTo (shares vs) k) = false ↔ (vs.countP (levelDown · ≤ k) : ℝ) ≤ t * vs.length := by
    intro k; rw [← Bool.not_eq_true, hlt, _root_.not_lt]
  have hl : ∀ k : Nat, (lit (k : ℚ) /. lit 255 : ℝ) = k / 255 := by
    intro k; rw [Exact.div (by ex_simp; norm_num)]; ex_simp
  unfold IsBlackPoint
  simp only [hlt, hf, hl]
  constructor
  · rintro (⟨k, h1, h2, h3, h4⟩ | ⟨h, _⟩)
    · exact ⟨k, h1, h4, h2, h3⟩
    · exfalso
      have := h 255 (by omega)
      rw [count_all levelDown vs levelDown_lt] at this
      nlinarith
  · rintro ⟨k, h1, h4, h2, h3⟩
    exact .inl ⟨k, h1, h2, h3, h4⟩

/-- The white point in exact arithmetic. -/
theorem C45_white_point (vs : List ℝ) (hne : vs ≠ []) (t p : ℝ) (ht : t < 1) :
    IsWhitePoint vs t p ↔ ∃ k : Nat, k < 256 ∧ p = k / 255 ∧
      t * vs.length < vs.countP (k ≤ levelDown ·) ∧
      ∀ j, k < j → j < 256 → (vs.countP (j ≤ levelDown ·) : ℝ) ≤ t * vs.length := by
  have hpos : (0 : ℝ) < vs.length := by
    have := List.length_pos_iff.2 hne
    exact_mod_cast this
  have hlt : ∀ k < 256, ((t <. downTo (shares vs) k) = true ↔
      t * vs.length < vs.countP (k ≤ levelDown ·)) := by
    intro k hk; rw [Exact.lt, downTo_shares vs hne k hk, lt_div_iff₀ hpos]
  have hf : ∀ k < 256, ((t <. downTo (shares vs) k) = false ↔
      (vs.countP (k ≤ levelDown ·) : ℝ) ≤ t * vs.length) := by
    intro k hk; rw [← Bool.not_eq_true, hlt k hk, _root_.not_lt]
  have hl : ∀ k : Nat, (lit (k : ℚ) /. lit 255 : ℝ) = k / 255 := by
    intro k; rw [Exact.div (by ex_simp; norm_num)]; ex_simp
  unfold IsWhitePoint
  constructor
  · rintro (⟨k, h1, h2, h3, h4⟩ | ⟨h, _⟩)
    · exact ⟨k, h1, by rw [h4, hl], (hlt k h1).1 h2, fun j hj hj' => (hf j hj').1 (h3 j hj hj')⟩
    · exfalso
      have := (hf 0 (by omega)).1 (h 0 (by omega))
      have e : vs.countP (0 ≤ levelDown ·) = vs.length := by
        rw [List.countP_eq_length]; simp
      rw [e] at this
      nlinarith
  · rintro ⟨k, h1, h4, h2, h3⟩
    exact .inl ⟨k, h1, (hlt k h1).2 h2, fun j hj hj' => (hf j hj').2 (h3 j hj hj'), by rw [h4, hl]⟩

theorem count_both (vs : List ℝ) (m : Nat) :
    vs.countP (levelDown · ≤ m) + vs.countP (m + 1 ≤ levelDown ·) = vs.length := by
  induction vs with
  | nil => rfl
  | cons a as ih =>
    simp only [List.countP_cons, decide_eq_true_eq, List.length_cons] at *
    split_ifs <;> omega

/-- C45, exact: for a threshold below half of all pixels (500 ‰) the black point is not above the white point. -/
theorem C45_ordered (vs : List ℝ) (hne : vs ≠ []) (t b w : ℝ) (ht : t < 1 / 2)
    (hb : IsBlackPoint vs t b) (hw : IsWhitePoint vs t w) : b ≤ w := by
  obtain ⟨k, hk, rfl, _, k2⟩ := (C45_black_point vs hne t b (by linarith)).1 hb
  obtain ⟨m, hm, rfl, _, m2⟩ := (C45_white_point vs hne t w (by linarith)).1 hw
  have hpos : (0 : ℝ) < vs.length := by
    have := List.length_pos_iff.2 hne
    exact_mod_cast this
  have : k ≤ m := by
    by_contra hc
    have a := k2 m (by omega)
    have c := m2 (m + 1) (by omega) (by omega)
    have e := count_both vs m
    have e' : (vs.countP (levelDown · ≤ m) : ℝ) + vs.countP (m + 1 ≤ levelDown ·) = vs.length := by
      exact_mod_cast e
    nlinarith
  apply div_le_div_of_nonneg_right _ (by norm_num)
  exact_mod_cast this

/-- C45, exact: with the black point below the white point a stretched channel is
`(v - b) / (w - b)`, limited to [0, 1]. -/
theorem C45_channel (b w : ℝ) (h : 1 / 8388608 ≤ w - b) (c : Col ℝ) :
    (Rgb.with_level c b w (lit 1)).c0 = max 0 (min 1 ((c.c0 - b) / (w - b))) ∧
    (Rgb.with_level c b w (lit 1)).c1 = max 0 (min 1 ((c.c1 - b) / (w - b))) ∧
    (Rgb.with_level c b w (lit 1)).c2 = max 0 (min 1 ((c.c2 - b) / (w - b))) ∧
    (Rgb.with_level c b w (lit 1)).alpha = c.alpha := by
  have hl := (C70_level b w (lit 1) h (by ex_simp; norm_num)).2.2.1
  have key : ∀ v, clamp01 (Rgb.level b w (lit 1) v) = max 0 (min 1 ((v - b) / (w - b))) := by
    intro v
    rw [hl v]
    have e : (1 : ℝ) / lit 1 = 1 := by ex_simp; norm_num
    rw [e]
    have hp : Scalar.powf (max 0 (min 1 ((v - b) / (w - b)))) (1 : ℝ) = max 0 (min 1 ((v - b) / (w - b))) := by
      rcases (le_max_left (0 : ℝ) (min 1 ((v - b) / (w - b)))).eq_or_lt with h | h
      · rw [← h, Exact.powf_zero one_pos]
      · rw [Exact.powf_pos _ h, Real.rpow_one]
    rw [hp, Exact.clamp01_id (le_max_left _ _) (max_le zero_le_one (min_le_left _ _))]
  exact ⟨key _, key _, key _, rfl⟩

/-- The level of a value in [0, 1], in exact arithmetic: `255·v` rounded down. -/
theorem levelDown_eq (v : ℝ) (h0 : 0 ≤ v) (h1 : v ≤ 1) : (levelDown v : Int) = ⌊255 * v⌋ := by
  have hf : 0 ≤ ⌊255 * v⌋ := Int.floor_nonneg.2 (by linarith)
  have hf' : ⌊255 * v⌋ ≤ 255 := by
    have : ⌊255 * v⌋ < 256 := by rw [Int.floor_lt]; push_cast; linarith
    omega
  unfold levelDown
  have : toInt 0 255 (v *. lit 255) = ⌊255 * v⌋ := by
    rw [show v *. lit 255 = 255 * v by ex_simp; ring]
    show max 0 (min 255 (if 255 * v < 0 then _ else _)) = _
    rw [if_neg (by linarith)]
    omega
  rw [this]; omega

/-! ### C69 -/

omit [Junk] in
theorem tanh_gap (x : ℝ) (h : 10 / 255 ≤ x) : 1 / 2 ^ 23 < Real.tanh x := by
  have e2 : Real.exp x * Real.exp x = Real.exp (2 * x) := by rw [← Real.exp_add]; ring_nf
  have hpos := Real.exp_pos x
  have hm : Real.exp (-x) = 1 / Real.exp x := by rw [Real.exp_neg, one_div]
  have hb : 1 + 2 * x ≤ Real.exp (2 * x) := by have := Real.add_one_le_exp (2 * x); linarith
  rw [Real.tanh_eq_sinh_div_cosh, Real.sinh_eq, Real.cosh_eq, hm, lt_div_iff₀ (by positivity)]
  have : Real.exp x - 1 / Real.exp x - 1 / 2 ^ 23 * (Real.exp x + 1 / Real.exp x) > 0 := by
    have : Real.exp x - 1 / Real.exp x - 1 / 2 ^ 23 * (Real.exp x + 1 / Real.exp x) =
        (Real.exp (2 * x) - 1 - 1 / 2 ^ 23 * (Real.exp (2 * x) + 1)) / Real.exp x := by
      rw [← e2]; field_simp
    rw [this]
    apply div_pos _ hpos
    nlinarith
  linarith

/-- C69, exact: with the black point `i/255` and the white point `j/255` a channel is left alone if
the points coincide; otherwise it becomes `(v - b·s)·s / (w - b)` with `s = tanh(10·|w - b|)`. -/
theorem C69_channel (i j : Nat) (v : ℝ) :
    let b : ℝ := i / 255
    let w : ℝ := j / 255
    let s := Real.tanh (10 * |w - b|)
    balancedChannel b w v = if i = j then v else (v - b * s) * s / (w - b) := by
  intro b w s
  have hs : Scalar.tanh (Scalar.abs (w -. b) *. lit 10) = s := by
    rw [Exact.tanh, Exact.abs]; ex_simp; rw [mul_comm]
  have hle : (s <=. lit (1 / 2 ^ 23) : Bool) = true ↔ s ≤ 1 / 2 ^ 23 := by
    rw [Exact.le, Exact.lit]; norm_num
  unfold balancedChannel
  simp only []
  rw [hs]
  by_cases hij : i = j
  · have : s = 0 := by
      show Real.tanh (10 * |(j : ℝ) / 255 - i / 255|) = 0
      rw [hij, sub_self, abs_zero, mul_zero, Real.tanh_zero]
    rw [if_pos (hle.2 (by rw [this]; norm_num)), if_pos hij]
  · have hgap : 1 / 255 ≤ |w - b| := by
      have : (1 : ℝ) ≤ |(j : ℝ) - i| := by
        have : (1 : Int) ≤ |(j : Int) - i| := Int.one_le_abs (by omega)
        exact_mod_cast this
      show (1 : ℝ) / 255 ≤ |(j : ℝ) / 255 - i / 255|
      rw [← sub_div, abs_div, abs_of_pos (by norm_num : (0 : ℝ) < 255)]
      exact div_le_div_of_nonneg_right this (by norm_num)
    have hne : w - b ≠ 0 := by
      intro h; rw [h, abs_zero] at hgap; norm_num at hgap
    have : 1 / 2 ^ 23 < s := tanh_gap _ (by linarith)
    rw [if_neg (by rw [hle]; linarith), if_neg hij]
    rw [show w -. b = w - b from rfl, Exact.div hne]
    ex_simp
    ring

/-- The image used as an example below: five gray pixels 0, 1/2, 1/2, 1, 1. -/
noncomputable def fiveGray (x _y : Nat) : Col ℝ :=
  let v : ℝ := if x = 0 then 0 else if x < 3 then 1 / 2 else 1
  ⟨v, v, v, 1⟩

omit [Junk] in
theorem fiveGray_values (i : Nat) :
    rows 5 1 (fun x y => channel (fiveGray x y) i) = [0, 1 / 2, 1 / 2, 1, 1] := by
  match i with
  | 0 => simp [rows, fiveGray, channel, List.range_succ]
  | 1 => simp [rows, fiveGray, channel, List.range_succ]
  | _ + 2 => simp [rows, fiveGray, channel, List.range_succ]

theorem five_levels : levelDown (0 : ℝ) = 0 ∧ levelDown (1 / 2 : ℝ) = 127 ∧ levelDown (1 : ℝ) = 255 := by
  have h0 := levelDown_eq 0 (by norm_num) (by norm_num)
  have h1 := levelDown_eq (1 / 2) (by norm_num) (by norm_num)
  have h2 := levelDown_eq 1 (by norm_num) (by norm_num)
  have e0 : ⌊(255 : ℝ) * 0⌋ = 0 := by norm_num
  have e1 : ⌊(255 : ℝ) * (1 / 2)⌋ = 127 := by rw [Int.floor_eq_iff]; norm_num
  have e2 : ⌊(255 : ℝ) * 1⌋ = 255 := by norm_num
  rw [e0] at h0; rw [e1] at h1; rw [e2] at h2
  omega

theorem five_black : IsBlackPoint ([0, 1 / 2, 1 / 2, 1, 1] : List ℝ) (3 / 10) (127 / 255) := by
  obtain ⟨l0, l1, l2⟩ := five_levels
  rw [C45_black_point _ (by simp) _ _ (by norm_num)]
  refine ⟨127, by norm_num, by norm_num, ?_, ?_⟩
  · simp only [List.countP_cons, List.countP_nil, l0, l1, l2]; norm_num
  · intro j hj
    simp only [List.countP_cons, List.countP_nil, l0, l1, l2, decide_eq_true_eq]
    rw [if_neg (show ¬ 255 ≤ j by omega), if_neg (show ¬ 127 ≤ j by omega)]
    norm_num

theorem five_white : IsWhitePoint ([0, 1 / 2, 1 / 2, 1, 1] : List ℝ) (3 / 10) 1 := by
  obtain ⟨l0, l1, l2⟩ := five_levels
  rw [C45_white_point _ (by simp) _ _ (by norm_num)]
  refine ⟨255, by norm_num, by norm_num, ?_, ?_⟩
  · simp only [List.countP_cons, List.countP_nil, l0, l1, l2]; norm_num
  · intro j hj hj'; omega

/-- C69: in Rgb mode the channels can leave [0, 1], even if those of the image do not and in exact
arithmetic: balancing the gray pixels 0, 1/2, 1/2, 1, 1 with the threshold 300 ‰ makes the first one
negative. -/
theorem C69_leaves_range : ∃ b : PixelBuffer (Col ℝ), Shows b 5 1 fiveGray ∧
    (∀ x y, Spec.Unit (fiveGray x y)) ∧
    ∃ b' px', balance b .Rgb (lit 300) = .ok b' ∧ Shows b' 5 1 px' ∧ (px' 0 0).c0 < 0 := by
  have sh : Shows ⟨5, 1, rows 5 1 fiveGray⟩ 5 1 fiveGray := ⟨rfl, rfl, by simp [ValidSize], rfl⟩
  refine ⟨_, sh, ?_, ?_⟩
  · intro x y
    unfold fiveGray
    constructor <;> simp only [] <;> (try split_ifs) <;> norm_num
  obtain ⟨bp, wp, b', hp, h1, h2⟩ := C69_balance sh .Rgb (lit 300)
  refine ⟨b', _, h1, h2, ?_⟩
  have ht : (lit 300 /. lit 1000 : ℝ) = 3 / 10 := by
    rw [Exact.div (by ex_simp; norm_num)]; ex_simp; norm_num
  have hv : (rows 5 1 fun x y => channel (D10.convert .rgb (balanceSpace .Rgb) (fiveGray x y)) 0) =
      [0, 1 / 2, 1 / 2, 1, 1] := fiveGray_values 0
  have h0 := hp 0 (by norm_num) rfl
  simp only [] at h0
  rw [hv, ht] at h0
  have hb := IsBlackPoint.unique h0.1 five_black
  have hw := IsWhitePoint.unique h0.2 five_white
  have hc := C69_channel 127 255 0
  simp only [] at hc
  rw [if_neg (by norm_num)] at hc
  show balancedChannel (bp 0) (wp 0) (fiveGray 0 0).c0 < 0
  rw [hb, hw, show (fiveGray 0 0).c0 = 0 from rfl]
  have e1 : ((127 : Nat) : ℝ) / 255 = 127 / 255 := by norm_num
  have e2 : ((255 : Nat) : ℝ) / 255 = 1 := by norm_num
  rw [e1, e2] at hc
  rw [hc]
  have hs : 0 < Real.tanh (10 * |1 - 127 / 255|) := by
    have := tanh_gap (10 * |1 - 127 / 255|) (by rw [abs_of_pos (by norm_num)]; norm_num)
    linarith [this, show (0 : ℝ) < 1 / 2 ^ 23 by norm_num]
  apply div_neg_of_neg_of_pos _ (by norm_num)
  nlinarith

/-- Non-vacuity of C45 and C69: the five gray values have a black point below their white point. -/
example : IsBlackPoint ([0, 1 / 2, 1 / 2, 1, 1] : List ℝ) (3 / 10) (127 / 255) ∧
    IsWhitePoint ([0, 1 / 2, 1 / 2, 1, 1] : List ℝ) (3 / 10) 1 ∧
    (1 : ℝ) / 8388608 ≤ 1 - 127 / 255 := ⟨five_black, five_white, by norm_num⟩

/-- Non-vacuity of C44: the equalised values of the three levels are 0, 1/2 and 1. -/
example : ([0, 1 / 2, 1 / 2, 1, 1] : List ℝ) ≠ [] ∧
    equalTable ([0, 1 / 2, 1 / 2, 1, 1] : List ℝ) 128 = 1 / 2 := by
  refine ⟨by simp, ?_⟩
  have h0 := level_eq 0 (by norm_num) (by norm_num)
  have h1 := level_eq (1 / 2) (by norm_num) (by norm_num)
  have h2 := level_eq 1 (by norm_num) (by norm_num)
  have e0 : ⌊(255 : ℝ) * 0 + 1 / 2⌋ = 0 := by rw [Int.floor_eq_iff]; norm_num
  have e1 : ⌊(255 : ℝ) * (1 / 2) + 1 / 2⌋ = 128 := by norm_num
  have e2 : ⌊(255 : ℝ) * 1 + 1 / 2⌋ = 255 := by rw [Int.floor_eq_iff]; norm_num
  rw [e0] at h0; rw [e1] at h1; rw [e2] at h2
  have l0 : level (0 : ℝ) = 0 := by omega
  have l1 : level (1 / 2 : ℝ) = 128 := by omega
  have l2 : level (1 : ℝ) = 255 := by omega
  rw [C44_exact _ (by simp)]
  simp only [List.countP_cons, List.countP_nil, l0, l1, l2, List.length_cons, List.length_nil]
  norm_num

end

/-! ### binary32 -/

section
variable [Libm b32]

/-- A finite float with the value `q`. -/
def HasValue (x : F32) (q : ℚ) : Prop := x.fin = true ∧ x.val = q

omit [Libm b32] in
theorem ofRat_nat (s : Bool) (n : Nat) (hn : n ≤ 2 ^ 24) : HasValue (FP.ofRat b32 s (n : ℚ)) n := by
  have h := FP.int_finite (f := b32) (n : Int) (by
    rw [abs_of_nonneg (by omega)]
    show (n : Int) ≤ 2 ^ 24
    exact_mod_cast hn)
  have := FP.ofRat_rep (s := s) h.1 h.2
  simpa [HasValue] using this

theorem lit_zero : HasValue (lit 0 : F32) (0 : Nat) := by
  show HasValue (FP.ofRat b32 false 0) _
  simpa using ofRat_nat false 0 (by norm_num)

theorem lit_one : HasValue (lit 1 : F32) (1 : Nat) := by
  show HasValue (FP.ofRat b32 false 1) _
  simpa using ofRat_nat false 1 (by norm_num)

theorem HasValue.add_nat {x y : F32} {n m : Nat} (hx : HasValue x n) (hy : HasValue y m)
    (h : n + m ≤ 2 ^ 24) : HasValue (x +. y) (n + m : Nat) := by
  show HasValue (FP.add x y) _
  rw [FP.add_fin hx.1 hy.1, hx.2, hy.2]
  have := ofRat_nat (x.isNeg && y.isNeg) (n + m) h
  push_cast at *; exact this

theorem times_one (n : Nat) (hn : n ≤ 2 ^ 24) : HasValue (times n (lit 1)) n := by
  have l0 := lit_zero
  have l1 := lit_one
  unfold times
  induction n with
  | zero => exact l0
  | succ n ih =>
    rw [Function.iterate_succ_apply']
    exact (ih (by omega)).add_nat l1 hn

theorem upTo_f32 (f : F32 → Nat) (vs : List F32) (hlen : vs.length ≤ 2 ^ 24) (k : Nat) :
    HasValue (upTo (fun j => times (vs.countP (f · = j)) (lit 1)) k) (vs.countP (f · ≤ k)) := by
  have l0 := lit_zero
  unfold upTo addUp
  induction k with
  | zero =>
    have e : vs.countP (f · ≤ 0) = 0 + vs.countP (f · = 0) := by simp
    have h2 : vs.countP (f · = 0) ≤ vs.length := List.countP_le_length
    rw [e]
    exact l0.add_nat (times_one _ (le_trans h2 hlen)) (by rw [zero_add]; exact le_trans h2 hlen)
  | succ k ih =>
    rw [List.range_succ, List.map_append, List.foldl_append]
    have e := count_split f vs k
    have h1 : vs.countP (f · ≤ k + 1) ≤ vs.length := List.countP_le_length
    rw [e]
    exact ih.add_nat (times_one _ (by omega)) (by omega)

/-- The shares of an image with at most 2^24 pixels are the correctly rounded quotients. -/
theorem share_f32 (vs : List F32) (hne : vs ≠ []) (hlen : vs.length ≤ 2 ^ 24) (k : Nat) :
    HasValue (share vs k) (rn b32 ((vs.countP (level · ≤ k) : ℚ) / vs.length)) := by
  have hpos : (0 : ℚ) < vs.length := by
    have := List.length_pos_iff.2 hne
    exact_mod_cast this
  have h1 := upTo_f32 level vs hlen k
  have h2 := ofRat_nat false vs.length hlen
  unfold share
  show HasValue (FP.div _ (FP.ofRat b32 false (vs.length : ℚ))) _
  rw [FP.div_fin h1.1 h2.1 (by rw [h2.2]; exact hpos.ne'), h1.2, h2.2]
  have hle : (vs.countP (level · ≤ k) : ℚ) / vs.length ≤ 1 := by
    rw [div_le_one hpos]
    exact_mod_cast List.countP_le_length
  have h0 : 0 ≤ (vs.countP (level · ≤ k) : ℚ) / vs.length := by positivity
  exact ⟨(FP.ofRat_unit (abs_le.2 ⟨by linarith, hle⟩)).1,
    (FP.ofRat_unit (abs_le.2 ⟨by linarith, hle⟩)).2.1⟩

theorem isNan_has {x : F32} {p : ℚ} (hx : HasValue x p) : isNan x = false :=
  FP.isNan_fin hx.1

theorem HasValue.lt {x y : F32} {p q : ℚ} (hx : HasValue x p) (hy : HasValue y q) :
    (x <. y) = decide (p < q) := by
  show FP.lt x y = _
  rw [FP.lt_fin hx.1 hy.1, hx.2, hy.2]

theorem HasValue.max {x y : F32} {p q : ℚ} (hx : HasValue x p) (hy : HasValue y q) :
    HasValue (Scalar.max x y) (Max.max p q) := by
  unfold Scalar.max
  rw [isNan_has hx, isNan_has hy]
  have := hx.lt hy
  simp only [Bool.false_eq_true, if_false]
  rw [show Scalar.lt x y = decide (p < q) from this]
  by_cases h : p < q
  · simp [h, max_eq_right h.le, hy]
  · simp [h, max_eq_left (_root_.not_lt.1 h), hx]

theorem HasValue.min {x y : F32} {p q : ℚ} (hx : HasValue x p) (hy : HasValue y q) :
    HasValue (Scalar.min x y) (Min.min p q) := by
  unfold Scalar.min
  rw [isNan_has hx, isNan_has hy]
  have := hy.lt hx
  simp only [Bool.false_eq_true, if_false]
  rw [show Scalar.lt y x = decide (q < p) from this]
  by_cases h : q < p
  · simp [h, min_eq_right h.le, hy]
  · simp [h, min_eq_left (_root_.not_lt.1 h), hx]

theorem foldl_max_f32 (f : Nat → F32) (q : Nat → ℚ) (hf : ∀ k, HasValue (f k) (q k)) (n : Nat)
    (s : F32) (p : ℚ) (hs : HasValue s p) (h : ∀ j k, j ≤ k → q j ≤ q k) :
    HasValue (((List.range (n + 1)).map f).foldl Scalar.max s) (Max.max p (q n)) := by
  induction n with
  | zero => exact hs.max (hf 0)
  | succ n ih =>
    rw [List.range_succ, List.map_append, List.foldl_append]
    have := ih.max (hf (n + 1))
    rw [max_assoc, max_eq_right (h n (n + 1) (by omega))] at this
    exact this

theorem foldl_min_f32 (f : Nat → F32) (q : Nat → ℚ) (hf : ∀ k, HasValue (f k) (q k)) (n : Nat)
    (s : F32) (p : ℚ) (hs : HasValue s p) (h : ∀ j k, j ≤ k → q j ≤ q k) :
    HasValue (((List.range (n + 1)).map f).foldl Scalar.min s) (Min.min p (q 0)) := by
  induction n with
  | zero => exact hs.min (hf 0)
  | succ n ih =>
    rw [List.range_succ, List.map_append, List.foldl_append]
    have := ih.min (hf (n + 1))
    rw [min_assoc, min_eq_left (h 0 (n + 1) (by omega))] at this
    exact this

/-- C44 in binary32: for an image with at most 2^24 pixels the new values of a channel are numbers
that increase with the level, start with 0, end with 1 (or are all 0) and are in [0, 1]. -/
theorem C44_f32 (vs : List F32) (hne : vs ≠ []) (hlen : vs.length ≤ 2 ^ 24) :
    ∃ q : Nat → ℚ, (∀ k ≤ 255, (equalTable vs k).fin = true ∧ (equalTable vs k).val = q k) ∧
      (∀ j k, j ≤ k → k ≤ 255 → q j ≤ q k) ∧ q 0 = 0 ∧
      (q 255 = 1 ∨ ∀ k ≤ 255, q k = 0) ∧ ∀ k ≤ 255, 0 ≤ q k ∧ q k ≤ 1 := by
  have hpos : (0 : ℚ) < vs.length := by
    have := List.length_pos_iff.2 hne
    exact_mod_cast this
  let c : Nat → ℚ := fun k => rn b32 ((vs.countP (level · ≤ k) : ℚ) / vs.length)
  have hc : ∀ k, HasValue (share vs k) (c k) := share_f32 vs hne hlen
  have rep1 : IsRep b32 (1 : ℚ) := by
    have := IsRep.int (f := b32) (z := 1) (by norm_num)
    simpa using this
  have mono : ∀ j k, j ≤ k → c j ≤ c k := by
    intro j k hjk
    apply rn_mono
    apply div_le_div_of_nonneg_right _ hpos.le
    exact_mod_cast count_mono level vs hjk
  have c1 : c 255 = 1 := by
    show rn b32 _ = 1
    rw [count_all level vs level_lt, div_self hpos.ne', rn_rep rep1]
  have c0 : 0 ≤ c 0 := rn_nonneg (by positivity)
  have cle : c 0 ≤ 1 := by rw [← c1]; exact mono 0 255 (by omega)
  have hhi := foldl_max_f32 (share vs) c hc 255 (lit 0) _ lit_zero mono
  have hbig : HasValue (lit greatest : F32) greatest := by
    refine ⟨?_, ?_⟩
    · show (FP.ofRat b32 false greatest).fin = true
      decide +kernel
    · show (FP.ofRat b32 false greatest).val = greatest
      decide +kernel
  have hlo := foldl_min_f32 (share vs) c hc 255 (lit greatest) _ hbig mono
  have eps : HasValue (lit (1 / 2 ^ 23) : F32) (1 / 2 ^ 23) := by
    refine ⟨?_, ?_⟩
    · show (FP.ofRat b32 false (1 / 2 ^ 23)).fin = true
      decide +kernel
    · show (FP.ofRat b32 false (1 / 2 ^ 23)).val = 1 / 2 ^ 23
      decide +kernel
  rw [c1, max_eq_right (by norm_num)] at hhi
  rw [min_eq_right (by refine le_trans cle ?_; unfold greatest; norm_num)] at hlo
  unfold equalTable
  simp only []
  generalize hHI : ((List.range 256).map (share vs)).foldl Scalar.max (lit 0) = hi at *
  generalize hLO : ((List.range 256).map (share vs)).foldl Scalar.min (lit greatest) = lo at *
  have sub_has : ∀ x : F32, ∀ p : ℚ, HasValue x p → c 0 ≤ p → p ≤ 1 → HasValue (x -. lo) (rn b32 (p - c 0)) := by
    intro x p hx h0 h1
    show HasValue (FP.sub x lo) _
    rw [FP.sub_fin hx.1 hlo.1, hx.2, hlo.2]
    exact ⟨(FP.ofRat_unit (abs_le.2 ⟨by linarith, by linarith⟩)).1,
      (FP.ofRat_unit (abs_le.2 ⟨by linarith, by linarith⟩)).2.1⟩
  have hd := sub_has hi 1 hhi cle le_rfl
  by_cases h : (hi -. lo <. lit (1 / 2 ^ 23)) = true
  · simp only [if_pos h]
    refine ⟨fun _ => 0, fun k _ => by simpa [HasValue] using lit_zero, by simp, by simp, by simp, by simp⟩
  · simp only [if_neg h]
    have hdpos : 0 < rn b32 (1 - c 0) := by
      rw [hd.lt eps] at h
      have : ¬ rn b32 (1 - c 0) < 1 / 2 ^ 23 := by simpa using h
      have := _root_.not_lt.1 this
      refine lt_of_lt_of_le (by norm_num) this
    have sle : ∀ k ≤ 255, c k ≤ 1 := fun k hk => by rw [← c1]; exact mono k 255 hk
    have sge : ∀ k, c 0 ≤ c k := fun k => mono 0 k (by omega)
    have d0 : ∀ k, 0 ≤ rn b32 (c k - c 0) := fun k => rn_nonneg (by linarith [sge k])
    have dle : ∀ k ≤ 255, rn b32 (c k - c 0) / rn b32 (1 - c 0) ≤ 1 := by
      intro k hk
      rw [div_le_one hdpos]
      exact rn_mono (by linarith [sle k hk])
    have dge : ∀ k, 0 ≤ rn b32 (c k - c 0) / rn b32 (1 - c 0) := fun k => div_nonneg (d0 k) hdpos.le
    have qmono : ∀ j k, j ≤ k → k ≤ 255 → rn b32 (rn b32 (c j - c 0) / rn b32 (1 - c 0)) ≤
        rn b32 (rn b32 (c k - c 0) / rn b32 (1 - c 0)) := by
      intro j k hjk _
      apply rn_mono
      apply div_le_div_of_nonneg_right _ hdpos.le
      exact rn_mono (by linarith [mono j k hjk])
    have q0 : rn b32 (rn b32 (c 0 - c 0) / rn b32 (1 - c 0)) = 0 := by
      rw [sub_self, rn_zero, zero_div, rn_zero]
    have q1 : rn b32 (rn b32 (c 255 - c 0) / rn b32 (1 - c 0)) = 1 := by
      rw [c1, div_self hdpos.ne', rn_rep rep1]
    refine ⟨fun k => rn b32 (rn b32 (c k - c 0) / rn b32 (1 - c 0)), ?_, qmono, q0, .inl q1, ?_⟩
    · intro k hk
      have hs := sub_has _ _ (hc k) (sge k) (sle k hk)
      show HasValue (FP.div (share vs k -. lo) (hi -. lo)) _
      rw [FP.div_fin hs.1 hd.1 (by rw [hd.2]; exact hdpos.ne'), hs.2, hd.2]
      exact ⟨(FP.ofRat_unit (abs_le.2 ⟨by linarith [dge k], dle k hk⟩)).1,
        (FP.ofRat_unit (abs_le.2 ⟨by linarith [dge k], dle k hk⟩)).2.1⟩
    · intro k hk
      exact ⟨rn_nonneg (dge k), rn_le_rep rep1 (dle k hk)⟩

/-- Above 2^24 values of one level the count stays at 2^24. -/
theorem C44_count_stuck (n : Nat) (hn : 2 ^ 24 ≤ n) : HasValue (times n (lit 1)) (2 ^ 24 : Nat) := by
  obtain ⟨m, rfl⟩ := Nat.exists_eq_add_of_le hn
  clear hn
  induction m with
  | zero => exact times_one _ le_rfl
  | succ m ih =>
    have : times (2 ^ 24 + (m + 1)) (lit 1 : F32) = times (2 ^ 24 + m) (lit 1) +. lit 1 := by
      unfold times
      rw [← Nat.add_assoc, Function.iterate_succ_apply']
    rw [this]
    show HasValue (FP.add _ _) _
    rw [FP.add_fin ih.1 lit_one.1, ih.2, lit_one.2]
    generalize (FP.isNeg _ && FP.isNeg _) = s
    have h : ∀ s, (FP.ofRat b32 s (((2 ^ 24 : Nat) : ℚ) + (1 : Nat))).fin = true ∧
        (FP.ofRat b32 s (((2 ^ 24 : Nat) : ℚ) + (1 : Nat))).val = (2 ^ 24 : Nat) := by
      decide +kernel
    exact h s

/-- Non-vacuity: a list of float values. -/
example : ∃ u v : F32, [u, v].length ≤ 2 ^ 24 ∧ level u ≠ level v :=
  ⟨lit 0, lit 1, by simp, by
    show level (lit 0 : F32) ≠ level (lit 1 : F32)
    unfold level
    show (FP.toInt 0 255 (FP.integral FP.roundAway (FP.mul (.ofRat b32 false 0) (.ofRat b32 false 255)))).toNat ≠
      (FP.toInt 0 255 (FP.integral FP.roundAway (FP.mul (.ofRat b32 false 1) (.ofRat b32 false 255)))).toNat
    decide +kernel⟩

end
end D10
