import Verif.Props.Recolor
import Verif.Props.Histogram
import Verif.Props.Smooth
import Verif.Props.ColorOps
import Verif.Lemmas.Hsl
import Verif.Lemmas.HslTrip

/-!
# Grey images stay grey (C98)

Where nothing else is said the statements hold in every arithmetic, so bit for bit in binary32.
-/

namespace D10
open Spec PixelBuffer
open Scalar (lit)

section
variable {F : Type} [Scalar F]

omit [Scalar F] in
theorem Spec.Grey.shuffle {c : Col F} (h : Grey c) (p : Fin 3 → Fin 3) : shuffle p c = c := by
  have e : ∀ i, component i c = c.c0 := by
    intro i
    match i with
    | 0 => rfl
    | 1 => exact h.1.symm
    | 2 => exact (h.1.trans h.2).symm
  obtain ⟨a, b⟩ := h
  cases c
  simp only [Spec.shuffle, e] at *
  simp [a, b]

omit [Scalar F] in
theorem grey_shuffle (i : Fin 3) (c : Col F) : Grey (shuffle (fun _ => i) c) := ⟨rfl, rfl⟩

omit [Scalar F] in
theorem all_grey_fixed {b : PixelBuffer (Col F)} (h : ∀ c ∈ b.data, Grey c) (p : Fin 3 → Fin 3) :
    b.map_colors (shuffle p) = b := by
  cases b with
  | mk w h' d =>
    show (⟨w, h', d.map (shuffle p)⟩ : PixelBuffer (Col F)) = _
    rw [List.map_congr_left fun c hc => (h c hc).shuffle p, List.map_id']

omit [Scalar F] in
/-- What commutes with copying a channel to the others keeps images grey. -/
theorem keepsGrey_of_commutes {op : PixelBuffer (Col F) → R (PixelBuffer (Col F))}
    (h : CommutesWith (shuffle fun _ => 0) op) : KeepsGrey op := by
  intro b b' hb hg e c hc
  have k := h b hb
  rw [all_grey_fixed hg, e] at k
  have k : b' = b'.map_colors (shuffle fun _ => 0) := Except.ok.inj k
  rw [k] at hc
  obtain ⟨d, -, rfl⟩ := List.mem_map.1 hc
  exact grey_shuffle 0 d

theorem grey_shows {b : PixelBuffer (Col F)} (hb : WellFormed b) (hg : ∀ c ∈ b.data, Grey c) :
    ∃ px, Shows b b.width b.height px ∧ ∀ x y, Grey (px x y) := by
  obtain ⟨px, s⟩ := wf_shows Rgb.NONE hb
  have t := C07_map_colors s (shuffle fun _ => 0)
  rw [all_grey_fixed hg] at t
  exact ⟨_, t, fun x y => grey_shuffle 0 (px x y)⟩

omit [Scalar F] in
theorem all_grey_of {b : PixelBuffer (Col F)} {w h px} (s : Shows b w h px)
    (g : ∀ x y, x < w → y < h → Grey (px x y)) : ∀ c ∈ b.data, Grey c := by
  intro c hc
  rw [s.pixels] at hc
  unfold rows at hc
  obtain ⟨y, h1, hy⟩ := List.mem_flatMap.1 hc
  obtain ⟨x, h2, rfl⟩ := List.mem_map.1 hy
  exact g x y (List.mem_range.1 h2) (List.mem_range.1 h1)

theorem keepsGrey_of {op : PixelBuffer (Col F) → R (PixelBuffer (Col F))}
    (hop : ∀ b w h px, Shows b w h px → (∀ x y, Grey (px x y)) →
      ∃ b' P, op b = .ok b' ∧ Shows b' w h P ∧ ∀ x y, Grey (P x y)) : KeepsGrey op := by
  intro b b' hb hg e
  obtain ⟨px, s, g⟩ := grey_shows hb hg
  obtain ⟨b₁, P, e₁, t, g'⟩ := hop _ _ _ _ s g
  rw [e] at e₁
  obtain rfl := Except.ok.inj e₁
  exact all_grey_of t fun x y _ _ => g' x y

/-! ## Operations that treat the channels alike -/

/-- C98: whatever is done to every pixel on its own, if it does not colour grey pixels. -/
theorem C98_pointwise (f : Col F → Col F) (hf : ∀ c, Grey c → Grey (f c)) :
    KeepsGrey fun b : PixelBuffer (Col F) => .ok (b.map_colors f) := by
  refine keepsGrey_of fun b w h px s g => ⟨_, _, rfl, C07_map_colors s f, fun x y => hf _ (g x y)⟩

/-- C98: the operations on colours that work channel by channel. -/
theorem C98_colour_operations (c : Col F) (hc : Grey c) (u v w : F) (f : F → F) :
    Grey (Rgb.invert c) ∧ Grey (Rgb.with_brightness c u) ∧ Grey (Rgb.with_contrast c u) ∧
    Grey (Rgb.with_brightness_contrast c u v) ∧ Grey (Rgb.with_gamma c u) ∧ Grey (Rgb.with_gamma_opt c u) ∧
    Grey (Rgb.with_level c u v w) ∧ Grey (Rgb.map_channels c f) ∧ Grey (Rgb.to_srgb c) ∧
    Grey (Srgb.to_rgb c) := by
  have k := C97_colour_operations (fun _ => 0) c u v w f
  rw [hc.shuffle] at k
  obtain ⟨k1, k2, k3, k4, k5, k6, k7, k8, -, k9, k10⟩ := k
  rw [k1, k2, k3, k4, k5, k6, k7, k8, k9, k10]
  exact ⟨grey_shuffle _ _, grey_shuffle _ _, grey_shuffle _ _, grey_shuffle _ _, grey_shuffle _ _,
    grey_shuffle _ _, grey_shuffle _ _, grey_shuffle _ _, grey_shuffle _ _, grey_shuffle _ _⟩

/-- C98: turning a colour into a grey one gives a grey one, by every rule. -/
theorem C98_to_gray (c : Col F) (i : Intensity) :
    Grey (Rgb.to_gray_with_intensity c i) ∧ Grey (Rgb.to_gray c) := ⟨⟨rfl, rfl⟩, ⟨rfl, rfl⟩⟩

/-- C98: convolution. -/
theorem C98_convolution {k : Kernel F} {N : Nat} {wt : Nat → Nat → F} (hk : k.Holds N wt)
    (hN : N ≤ 1073741824) : KeepsGrey fun b => b.apply_kernel N k :=
  keepsGrey_of_commutes (C97_convolution _ hk hN)

theorem C98_convolution_dyn [LawfulScalar F] {k : KernelDyn F} {W H : Nat}
    {wt : Nat → Nat → F} (hk : k.Holds W H wt) (hlt : W * H < 4294967296) (hW : W ≤ 1073741824)
    (hH : H ≤ 1073741824) : KeepsGrey fun b => b.apply_kernel_dyn k :=
  keepsGrey_of_commutes (C97_convolution_dyn _ hk hlt hW hH)

/-- C98: Gaussian blur, unsharp mask and edge detection. -/
theorem C98_blur_sharpen_edges [LawfulScalar F] (r : Nat) (factor : F) (sigma : Option F) (mode : EdgeDetection) :
    KeepsGrey (fun b => gaussian_blur b r sigma) ∧
    (r ≤ 32767 → KeepsGrey fun b => unsharp b r factor sigma) ∧
    KeepsGrey fun b : PixelBuffer (Col F) => edge_detection b mode :=
  ⟨keepsGrey_of_commutes (C97_gaussian_blur _ r sigma),
    fun hr => keepsGrey_of_commutes (C97_unsharp _ r hr factor sigma),
    keepsGrey_of_commutes (C97_edge_detection _ mode)⟩

/-! ## Operations that look at more than one channel -/

theorem addUp_grey (l : List (Col F)) (g : ∀ c ∈ l, Grey c) :
    addUp (l.map Col.c0) = addUp (l.map Col.c1) ∧ addUp (l.map Col.c1) = addUp (l.map Col.c2) :=
  ⟨congrArg _ (List.map_congr_left fun c hc => (g c hc).1), congrArg _ (List.map_congr_left fun c hc => (g c hc).2)⟩

/-- C98: despeckling. -/
theorem C98_despeckle (t : F) (amount : Nat) : KeepsGrey fun b => despeckle b t amount := by
  refine keepsGrey_of fun b w h px s g => ?_
  obtain ⟨b', e, s'⟩ := C40_despeckle s t amount
  refine ⟨b', _, e, s', fun x y => ?_⟩
  unfold despeckled
  simp only
  split_ifs
  · have hl : ∀ c ∈ ((window w h px 3 x y).flatten).filter (bright t), Grey c := by
      intro c hc
      have hc := (List.mem_filter.1 hc).1
      unfold window at hc
      obtain ⟨l, hl, hc⟩ := List.mem_flatten.1 hc
      obtain ⟨j, -, rfl⟩ := List.mem_map.1 hl
      obtain ⟨i, -, rfl⟩ := List.mem_map.1 hc
      exact g _ _
    have := addUp_grey _ hl
    exact ⟨congrArg clamp01 (congrArg (· /. _) this.1), congrArg clamp01 (congrArg (· /. _) this.2)⟩
  · exact g x y

/-- C98: symmetric nearest neighbour smoothing. -/
theorem C98_symmetric_nearest_neighbor (r : Nat) (hr : r < 1073741824) (with_center : Bool) :
    KeepsGrey fun b : PixelBuffer (Col F) => symmetric_nearest_neighbor b r with_center := by
  refine keepsGrey_of fun b w h px s g => ?_
  obtain ⟨b', e, s'⟩ := C43_symmetric_nearest_neighbor s r hr with_center
  refine ⟨b', _, e, s', fun x y => ?_⟩
  have hp : ∀ c ∈ picked w h px r x y, Grey c := by
    intro c hc
    unfold picked at hc
    obtain ⟨i, -, hc⟩ := List.mem_flatMap.1 hc
    obtain ⟨d, -, rfl⟩ := List.mem_map.1 hc
    simp only [nearer]
    split <;> exact g _ _
  have hl : ∀ c ∈ (if with_center then px x y :: picked w h px r x y else picked w h px r x y), Grey c := by
    intro c hc
    split at hc
    · rcases List.mem_cons.1 hc with rfl | hc
      · exact g _ _
      · exact hp c hc
    · exact hp c hc
  have := addUp_grey _ hl
  exact ⟨congrArg clamp01 (congrArg (· /. _) this.1), congrArg clamp01 (congrArg (· /. _) this.2)⟩

variable [LawfulCast F]

/-- C98: contrast stretching. -/
theorem C98_stretch_contrast (t : F) : KeepsGrey fun b => stretch_contrast b t := by
  refine keepsGrey_of fun b w h px s g => ?_
  obtain ⟨bp, wp, b', -, -, e, s'⟩ := C45_stretch_contrast s t
  refine ⟨b', _, e, s', fun x y => ?_⟩
  split_ifs
  · exact (C98_colour_operations _ (g x y) bp wp (lit 1) id).2.2.2.2.2.2.1
  · exact g x y

/-- C98: equalising the three channels, linear or not. -/
theorem C98_equalize (mode : EqualizeMode) (hm : mode = .Rgb ∨ mode = .Srgb) :
    KeepsGrey fun b : PixelBuffer (Col F) => equalize b mode := by
  refine keepsGrey_of fun b w h px s g => ?_
  obtain ⟨b', e, s'⟩ := C44_equalize s mode
  refine ⟨b', _, e, s', fun x y => ?_⟩
  have key : ∀ (q : Nat → Nat → Col F), (∀ x y, Grey (q x y)) →
      equalised (rows w h fun x y => (q x y).c0) (q x y).c0 = equalised (rows w h fun x y => (q x y).c1) (q x y).c1 ∧
      equalised (rows w h fun x y => (q x y).c1) (q x y).c1 = equalised (rows w h fun x y => (q x y).c2) (q x y).c2 := by
    intro q hq
    have h1 : (fun x y => (q x y).c0) = fun x y => (q x y).c1 := funext fun x => funext fun y => (hq x y).1
    have h2 : (fun x y => (q x y).c1) = fun x y => (q x y).c2 := funext fun x => funext fun y => (hq x y).2
    rw [h1, (hq x y).1, h2, (hq x y).2]
    exact ⟨rfl, rfl⟩
  rcases hm with rfl | rfl
  · have := key px g
    exact ⟨congrArg clamp01 this.1, congrArg clamp01 this.2⟩
  · have := key (fun x y => D10.convert .rgb .srgb (px x y))
      fun x y => (C98_colour_operations _ (g x y) (lit 1) (lit 1) (lit 1) id).2.2.2.2.2.2.2.2.1
    refine (C98_colour_operations _ ?_ (lit 1) (lit 1) (lit 1) id).2.2.2.2.2.2.2.2.2
    exact ⟨congrArg clamp01 this.1, congrArg clamp01 this.2⟩

end

section
variable {F : Type} [Scalar F] [Coords F]

/-- C98: resizing with every filter. -/
theorem C98_resize (filter : FilterMode) (nw nh : Nat) {b b' : PixelBuffer (Col F)} (hb : WellFormed b)
    (h0 : 0 < b.width) (hauto : filter = .Auto → b.width ≤ 134217728 ∧ b.height ≤ 134217728)
    (hg : ∀ c ∈ b.data, Grey c) (e : resize b nw nh filter = .ok b') : ∀ c ∈ b'.data, Grey c := by
  have k := C97_resize (fun _ => 0) filter nw nh hb h0 hauto
  rw [all_grey_fixed hg, e] at k
  have k : b' = b'.map_colors (shuffle fun _ => 0) := Except.ok.inj k
  intro c hc
  rw [k] at hc
  obtain ⟨d, -, rfl⟩ := List.mem_map.1 hc
  exact grey_shuffle 0 d

/-- C98: rotation with every filter onto a grey background. -/
theorem C98_rotate (angle : F) (bg : Col F) (hbg : Grey bg) (filter : FilterMode) :
    KeepsGrey fun b => rotate b angle bg filter := by
  intro b b' hb hg e c hc
  have k := C97_rotate (fun _ => 0) angle bg filter hb
  have e : rotate b angle bg filter = .ok b' := e
  rw [all_grey_fixed hg, hbg.shuffle, e] at k
  have k : b' = b'.map_colors (shuffle fun _ => 0) := Except.ok.inj k
  rw [k] at hc
  obtain ⟨d, -, rfl⟩ := List.mem_map.1 hc
  exact grey_shuffle 0 d

end

/-! ## Operations on hue, saturation and lightness -/

section
variable {F : Type} [Scalar F]

theorem to_hsl_of_grey {c : Col F} (hd : ((Rgb.max c -. Rgb.min c) <. EPSILON) = true) :
    Rgb.to_hsl c = ⟨lit 0, lit 0, (Rgb.max c +. Rgb.min c) /. lit 2, c.alpha⟩ := by
  unfold Rgb.to_hsl
  simp only
  rw [if_pos hd]

theorem grey_of_unsaturated {c : Col F} (h : (c.c1 ==. lit 0) = true) : Grey (Hsl.to_rgb c) := by
  unfold Hsl.to_rgb
  simp only
  rw [if_pos h]
  exact ⟨rfl, rfl⟩

end

section
variable [Junk]

theorem exact_grey {c : Col ℝ} (hc : Spec.Unit c) (hg : Grey c) : Rgb.to_hsl c = ⟨0, 0, c.c0, c.alpha⟩ := by
  obtain ⟨h1, h2⟩ := hg
  rw [Exact.to_hsl_gray hc (by rw [← h2, ← h1]; simp), ← h2, ← h1]
  simp

/-- C98: in exact arithmetic the operations on hue, saturation and lightness keep grey colours grey,
and equalising saturation or lightness keeps grey images grey. -/
theorem C98_hsl {c : Col ℝ} (hc : Spec.Unit c) (hg : Grey c) (u v w : ℝ) :
    Grey (Rgb.with_saturation c u) ∧ Grey (Rgb.with_lightness c u) ∧ Grey (Rgb.with_hue_rotate c u) ∧
    Grey (Rgb.with_vibrance c u) ∧ Grey (Rgb.modulate c u v w) ∧
    (0 < u → Grey (Rgb.with_gamma_saturation c u)) ∧ (1 ≤ u → Grey (Rgb.stretch_saturation c u)) := by
  have e := exact_grey hc hg
  have z : ∀ h l a : ℝ, Grey (Hsl.to_rgb ⟨h, 0, l, a⟩) := fun h l a => grey_of_unsaturated (by ex_simp)
  refine ⟨?_, ?_, ?_, ?_, ?_, ?_, ?_⟩
  · unfold Rgb.with_saturation; simp only [e]
    convert z _ _ _ using 3
    rw [Exact.clamp01]; ex_simp; simp
  · unfold Rgb.with_lightness; simp only [e]; exact z _ _ _
  · unfold Rgb.with_hue_rotate; simp only [e]; exact z _ _ _
  · unfold Rgb.with_vibrance Col.opaque; simp only [e]
    convert z _ _ _ using 3
    ex_simp
    simp
  · unfold Rgb.modulate; simp only [e]
    convert z _ _ _ using 3
    rw [Exact.clamp01]; ex_simp; simp
  · intro hu
    unfold Rgb.with_gamma_saturation; simp only [e]
    convert z _ _ _ using 3
    have hu' : u ≠ 0 := hu.ne'
    rw [Exact.clamp01]; ex_simp
    rw [min_eq_right zero_le_one, max_self, Exact.powf_zero (by positivity)]
  · intro hu
    unfold Rgb.stretch_saturation; simp only [e]
    convert z _ _ _ using 3
    rw [Exact.clamp01]; ex_simp
    rw [max_eq_left]
    exact (min_le_right _ _).trans (by norm_num; linarith)

/-- C98, the exception: stretching the saturation by a factor below 1 turns every grey other than
black and white reddish. -/
theorem C98_stretch_saturation_colours {c : Col ℝ} (hc : Spec.Unit c) (hg : Grey c) (h0 : 0 < c.c0)
    (h1 : c.c0 < 1) (u : ℝ) (u0 : 0 ≤ u) (u1 : u < 1) :
    (Rgb.stretch_saturation c u).c1 = (Rgb.stretch_saturation c u).c2 ∧
    (Rgb.stretch_saturation c u).c1 < (Rgb.stretch_saturation c u).c0 := by
  have e := exact_grey hc hg
  have es : clamp01 ((0 - 0.5) * u + 0.5 : ℝ) = (1 - u) / 2 := by
    rw [Exact.clamp01_id (by linarith) (by linarith)]; ring
  unfold Rgb.stretch_saturation; simp only [e]
  ex_simp
  rw [es]
  unfold Hsl.to_rgb
  ex_simp
  rw [if_neg (by linarith)]
  have t1 : Hsl.hue2rgb (F := ℝ) = Hsl.hue2rgb := rfl
  simp only [zero_add, zero_sub]
  generalize hq : (if c.c0 < 0.5 then c.c0 * (1 + (1 - u) / 2) else c.c0 + (1 - u) / 2 - c.c0 * ((1 - u) / 2)) = q
  have hq1 : c.c0 < q ∧ q ≤ 1 ∧ 0 ≤ 2 * c.c0 - q := by
    rw [← hq]
    split_ifs with h
    · refine ⟨?_, ?_, ?_⟩ <;> norm_num at h <;> nlinarith
    · refine ⟨?_, ?_, ?_⟩ <;> norm_num at h <;> nlinarith
  rw [Exact.ramp_top (by norm_num) (by norm_num), Exact.ramp_neg (t := 0) (by norm_num) (by norm_num),
    Exact.ramp_neg (t := -(1 / 3)) (by norm_num) (by norm_num)]
  refine ⟨rfl, ?_⟩
  show clamp01 _ < clamp01 _
  rw [Exact.clamp01_id (by linarith) (by linarith), Exact.clamp01_id (by linarith) (by linarith)]
  linarith

theorem level_zero_exact : level (0 : ℝ) = 0 := by
  unfold level
  have : Scalar.round ((0 : ℝ) *. lit 255) = ((0 : Int) : ℝ) := by
    ex_simp
    rw [zero_mul]
    show (if (0 : ℝ) < 0 then ((⌈(0 : ℝ) - 1 / 2⌉ : ℤ) : ℝ) else ((⌊(0 : ℝ) + 1 / 2⌋ : ℤ) : ℝ)) = _
    norm_num
  rw [this, Exact.toInt_int]
  rfl

/-- C98: equalising saturation, lightness or both of a grey image, in exact arithmetic. -/
theorem C98_equalize_hsl (mode : EqualizeMode) {b b' : PixelBuffer (Col ℝ)} (hb : WellFormed b)
    (hg : ∀ c ∈ b.data, Grey c) (hu : ∀ c ∈ b.data, Spec.Unit c) (e : equalize b mode = .ok b') :
    ∀ c ∈ b'.data, Grey c := by
  by_cases hm : mode = .Rgb ∨ mode = .Srgb
  · exact C98_equalize mode hm b b' hb hg e
  obtain ⟨px, s⟩ := wf_shows Rgb.NONE hb
  obtain ⟨b₁, e₁, s₁⟩ := C44_equalize s mode
  rw [e] at e₁
  obtain rfl := Except.ok.inj e₁
  refine all_grey_of s₁ fun x y hx hy => ?_
  have hin : px x y ∈ b.data := by
    have := s.getElem? hx hy
    exact List.mem_of_getElem? this
  have hz : D10.convert .rgb .hsl (px x y) = ⟨0, 0, (px x y).c0, (px x y).alpha⟩ := exact_grey (hu _ hin) (hg _ hin)
  have hne : (rows b.width b.height fun x y => (D10.convert .rgb .hsl (px x y)).c1) ≠ [] := by
    intro h
    have := congrArg List.length h
    rw [rows_length] at this
    have := Nat.mul_pos (show 0 < b.width by omega) (show 0 < b.height by omega)
    simp only [List.length_nil] at *
    omega
  have h0 : equalised (rows b.width b.height fun x y => (D10.convert .rgb .hsl (px x y)).c1) (0 : ℝ) = 0 := by
    unfold equalised
    rw [level_zero_exact]
    exact (C44_monotone _ hne).2.1
  have z : ∀ h l a : ℝ, Grey (to_rgb .hsl ⟨h, 0, l, a⟩) := fun h l a => grey_of_unsaturated (by ex_simp)
  cases mode with
  | Rgb => simp at hm
  | Srgb => simp at hm
  | Saturation =>
    unfold equalisedPixel
    simp only [hz] at *
    rw [h0]; exact z _ _ _
  | Lightness =>
    unfold equalisedPixel
    simp only [hz] at *
    exact z _ _ _
  | SaturationLightness =>
    unfold equalisedPixel
    simp only [hz] at *
    rw [h0]; exact z _ _ _

end

section
variable [Libm b32]

theorem grey32 {c : Col F32} (hc : UnitCol c) (hg : Grey c) :
    ((Rgb.max c -. Rgb.min c) <. EPSILON) = true := by
  obtain ⟨h1, h2⟩ := hg
  obtain ⟨hM, -, -, -, M⟩ := max32 hc
  obtain ⟨hm, -, -, -, m⟩ := min32 hc
  rw [← h2, ← h1, or_self, or_self] at M m
  rw [below_eps hM hm]
  have : (Rgb.max c -. Rgb.min c : F32).val = 0 := by
    show (FP.sub _ _).val = 0
    rw [FP.sub_fin hM.1 hm.1, M, m, sub_self, FP.ofRat_zero]
    rfl
  rw [this]
  norm_num

theorem zero_mul32 {x : F32} (hx : x.fin = true) : (clamp01 (lit 0 *. x) ==. (lit 0 : F32)) = true := by
  have e : (lit 0 *. x : F32).fin = true ∧ (lit 0 *. x : F32).val = 0 := by
    show (FP.mul (FP.ofRat b32 false 0) x).fin = true ∧ (FP.mul (FP.ofRat b32 false 0) x).val = 0
    rw [FP.mul_fin FP.lit0.1 hx, FP.lit0.2, zero_mul, FP.ofRat_zero]
    exact ⟨rfl, rfl⟩
  have k := NearF.clamp_fin e.1
  show FP.eq _ (FP.ofRat b32 false 0) = true
  rw [FP.eq_fin k.1 FP.lit0.1, FP.lit0.2, k.2, e.2]
  norm_num

/-- C98: the operations on hue, saturation and lightness keep grey colours grey in binary32. -/
theorem C98_hsl_binary32 {c : Col F32} (hc : UnitCol c) (hg : Grey c) (u v w : F32) :
    (u.fin = true → Grey (Rgb.with_saturation c u)) ∧ Grey (Rgb.with_lightness c u) ∧
    Grey (Rgb.with_hue_rotate c u) ∧ (v.fin = true → Grey (Rgb.modulate c u v w)) := by
  have e := to_hsl_of_grey (grey32 hc hg)
  have z : ((lit 0 : F32) ==. lit 0) = true := by
    show FP.eq (FP.ofRat b32 false 0) (FP.ofRat b32 false 0) = true
    rw [FP.eq_fin FP.lit0.1 FP.lit0.1]; simp
  refine ⟨fun hu => ?_, ?_, ?_, fun hv => ?_⟩
  · unfold Rgb.with_saturation; simp only [e]
    exact grey_of_unsaturated (zero_mul32 hu)
  · unfold Rgb.with_lightness; simp only [e]
    exact grey_of_unsaturated z
  · unfold Rgb.with_hue_rotate; simp only [e]
    exact grey_of_unsaturated z
  · unfold Rgb.modulate; simp only [e]
    exact grey_of_unsaturated (zero_mul32 hv)

end

/-! ## Examples -/

/-- A grey pixel, and the red tint it gets. -/
example [Junk] : Spec.Unit ⟨1/2, 1/2, 1/2, 1⟩ ∧ Grey (⟨1/2, 1/2, 1/2, 1⟩ : Col ℝ) ∧
    (Rgb.stretch_saturation (⟨1/2, 1/2, 1/2, 1⟩ : Col ℝ) (1/2)).c1 <
      (Rgb.stretch_saturation (⟨1/2, 1/2, 1/2, 1⟩ : Col ℝ) (1/2)).c0 := by
  have u : Spec.Unit ⟨1/2, 1/2, 1/2, 1⟩ := ⟨by norm_num, by norm_num, by norm_num, by norm_num, by norm_num,
    by norm_num, by norm_num, by norm_num⟩
  exact ⟨u, ⟨rfl, rfl⟩, (C98_stretch_saturation_colours u ⟨rfl, rfl⟩ (by norm_num) (by norm_num) (1/2)
    (by norm_num) (by norm_num)).2⟩

/-- An image of two grey pixels is a grey image. -/
example : let b : PixelBuffer (Col ℝ) := ⟨2, 1, [⟨1/4, 1/4, 1/4, 1⟩, ⟨1, 1, 1, 1/2⟩]⟩
    WellFormed b ∧ ∀ c ∈ b.data, Grey c := by
  refine ⟨⟨.inr ⟨by norm_num, by norm_num, by norm_num⟩, rfl⟩, ?_⟩
  simp [Grey]

/-- In binary32: white. -/
example [Libm b32] : ∃ c : Col F32, UnitCol c ∧ Grey c ∧ c.c0.val = 1 := by
  refine ⟨⟨lit 1, lit 1, lit 1, lit 1⟩, ?_, ⟨rfl, rfl⟩, FP.lit1.2⟩
  have h : (FP.ofRat b32 false 1).fin = true ∧ 0 ≤ (FP.ofRat b32 false 1).val ∧ (FP.ofRat b32 false 1).val ≤ 1 := by
    rw [FP.lit1.2]; exact ⟨FP.lit1.1, zero_le_one, le_rfl⟩
  exact ⟨h, h, h, h⟩

end D10
