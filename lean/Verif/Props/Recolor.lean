import Verif.SpecRecolor
import Verif.Lemmas.Local
import Verif.Props.Convolution
import Verif.Props.Sample
import Verif.Props.Drawing
import Verif.Props.Blend

/-!
# The colour channels are treated alike (C97)

In every arithmetic: the statements are about equality of the results, bit for bit in binary32.
-/

namespace D10
open Spec PixelBuffer
open Scalar (lit)

section
variable {F : Type} [Scalar F]

omit [Scalar F] in
theorem component_perChannel (g : (Col F → F) → F) (i : Fin 3) :
    component i (perChannel g) = g (component i) :=
  match i with
  | 0 => rfl
  | 1 => rfl
  | 2 => rfl

omit [Scalar F] in
theorem shuffle_perChannel (p : Fin 3 → Fin 3) (g : (Col F → F) → F) :
    shuffle p (perChannel g) = ⟨g (component (p 0)), g (component (p 1)), g (component (p 2)), g Col.alpha⟩ := by
  unfold shuffle
  simp only [component_perChannel]
  rfl

omit [Scalar F] in
theorem component_mk (g : (Col F → F) → F) (a : F) (i : Fin 3) :
    component i ⟨g Col.c0, g Col.c1, g Col.c2, a⟩ = g (component i) :=
  match i with
  | 0 => rfl
  | 1 => rfl
  | 2 => rfl

omit [Scalar F] in
theorem shuffle_mk (p : Fin 3 → Fin 3) (g : (Col F → F) → F) (a : F) :
    shuffle p ⟨g Col.c0, g Col.c1, g Col.c2, a⟩
      = ⟨g (component (p 0)), g (component (p 1)), g (component (p 2)), a⟩ := by
  unfold shuffle
  simp only [component_mk]

theorem shuffle_map_channels (p : Fin 3 → Fin 3) (c : Col F) (f : F → F) :
    Rgb.map_channels (shuffle p c) f = shuffle p (Rgb.map_channels c f) :=
  (shuffle_mk p (fun ch => clamp01 (f (ch c))) c.alpha).symm

/-! ## Operations on colours -/

/-- C97: operations on one colour that do the same to every channel. `p` exchanges or copies
channels. -/
theorem C97_colour_operations (p : Fin 3 → Fin 3) (c : Col F) (u v w : F) (f : F → F) :
    Rgb.invert (shuffle p c) = shuffle p (Rgb.invert c) ∧
    Rgb.with_brightness (shuffle p c) u = shuffle p (Rgb.with_brightness c u) ∧
    Rgb.with_contrast (shuffle p c) u = shuffle p (Rgb.with_contrast c u) ∧
    Rgb.with_brightness_contrast (shuffle p c) u v = shuffle p (Rgb.with_brightness_contrast c u v) ∧
    Rgb.with_gamma (shuffle p c) u = shuffle p (Rgb.with_gamma c u) ∧
    Rgb.with_gamma_opt (shuffle p c) u = shuffle p (Rgb.with_gamma_opt c u) ∧
    Rgb.with_level (shuffle p c) u v w = shuffle p (Rgb.with_level c u v w) ∧
    Rgb.map_channels (shuffle p c) f = shuffle p (Rgb.map_channels c f) ∧
    Rgb.map_channels_unclamped (shuffle p c) f = shuffle p (Rgb.map_channels_unclamped c f) ∧
    Rgb.to_srgb (shuffle p c) = shuffle p (Rgb.to_srgb c) ∧
    Srgb.to_rgb (shuffle p c) = shuffle p (Srgb.to_rgb c) :=
  ⟨(shuffle_mk p (fun ch => lit 1 -. ch c) c.alpha).symm, shuffle_map_channels _ _ _,
    shuffle_map_channels _ _ _, shuffle_map_channels _ _ _, shuffle_map_channels _ _ _,
    shuffle_map_channels _ _ _, shuffle_map_channels _ _ _, shuffle_map_channels _ _ _,
    (shuffle_mk p (fun ch => f (ch c)) c.alpha).symm,
    (shuffle_mk p (fun ch => clamp01 (linear_to_gamma (ch c))) _).symm,
    (shuffle_mk p (fun ch => clamp01 (gamma_to_linear (ch c))) _).symm⟩

/-- C97: operations on two colours. -/
theorem C97_two_colours (p : Fin 3 → Fin 3) (c d : Col F) (i : F) (op : BlendOp)
    (hop : op ∈ [BlendOp.Normal, .Addition, .Subtract, .Darken, .Lighten]) :
    Rgb.difference (shuffle p c) (shuffle p d) = shuffle p (Rgb.difference c d) ∧
    Rgb.alpha_blend (shuffle p c) (shuffle p d) = shuffle p (Rgb.alpha_blend c d) ∧
    modeFunction op (shuffle p c) (shuffle p d) i = shuffle p (modeFunction op c d i) := by
  have ab : ∀ d : Col F, Rgb.alpha_blend (shuffle p c) (shuffle p d) = shuffle p (Rgb.alpha_blend c d) := fun d =>
    (shuffle_mk p (fun ch => clamp01 (ch d *. d.alpha +. (lit 1 -. d.alpha) *. ch c)) _).symm
  have bc : ∀ f : F → F → F, blend_color (shuffle p c) (shuffle p d) i f = shuffle p (blend_color c d i f) :=
    fun f => (shuffle_mk p (fun ch => clamp01 (apply_intensity (ch c) (f (ch c) (ch d)) (i *. d.alpha))) _).symm
  refine ⟨(shuffle_mk p (fun ch => clamp01 (Scalar.abs (ch c -. ch d))) _).symm, ab d, ?_⟩
  simp only [List.mem_cons, List.not_mem_nil, or_false] at hop
  rcases hop with rfl | rfl | rfl | rfl | rfl
  · exact (shuffle_mk p (fun ch => clamp01 (ch d *. (d.alpha *. i) +. (lit 1 -. (d.alpha *. i)) *. ch c)) _).symm
  · exact bc _
  · exact bc _
  · exact bc _
  · exact bc _

/-! ## Operations on images -/

/-- C97: blending two images in the modes that work on channels. -/
theorem C97_blend (p : Fin 3 → Fin 3) {a b : PixelBuffer (Col F)} (ha : WellFormed a) (hb : WellFormed b)
    (op : BlendOp) (hop : op ∈ [BlendOp.Normal, .Addition, .Subtract, .Darken, .Lighten]) (i : F) :
    blend_image (a.map_colors (shuffle p)) (b.map_colors (shuffle p)) op i
      = (blend_image a b op i).map (·.map_colors (shuffle p)) := by
  obtain ⟨px, s⟩ := wf_shows Rgb.NONE ha
  obtain ⟨qx, t⟩ := wf_shows Rgb.NONE hb
  have k := C36_blend_image s t op i
  have k1 := C36_blend_image (C07_map_colors s (shuffle p)) (C07_map_colors t (shuffle p)) op i
  by_cases hv : ValidSize (max a.width b.width) (max a.height b.height)
  · obtain ⟨r, e, u⟩ := k.1 hv
    obtain ⟨r', e', u'⟩ := k1.1 hv
    rw [e, e']
    refine congrArg Except.ok ((u'.congr fun x y _ _ => ?_).eq (C07_map_colors u (shuffle p)))
    split_ifs
    · exact (C97_two_colours p _ _ i op hop).2.2
    · rfl
    · rfl
    · exact (shuffle_mk p (fun _ => lit 0) _).symm
  · rw [k.2 hv, k1.2 hv]; rfl


/-- From the pictures to the operations. -/
theorem commutesWith_of {f : Col F → Col F} {op : PixelBuffer (Col F) → R (PixelBuffer (Col F))}
    (hop : ∀ b w h px, Shows b w h px → (∃ b' w' h' P, op b = .ok b' ∧ Shows b' w' h' P ∧
      ∀ b₁, Shows b₁ w h (fun x y => f (px x y)) →
        ∃ b₂ Q, op b₁ = .ok b₂ ∧ Shows b₂ w' h' Q ∧ ∀ x y, x < w' → y < h' → Q x y = f (P x y)) ∨
      ∃ e, ∀ b₁ px₁, Shows b₁ w h px₁ → op b₁ = .error e) :
    CommutesWith f op := by
  intro b hb
  obtain ⟨px, s⟩ := wf_shows Rgb.NONE hb
  have s1 := C07_map_colors s f
  rcases hop _ _ _ _ s with ⟨b', w', h', P, e1, t1, hh⟩ | ⟨e, he⟩
  · obtain ⟨b₂, Q, e2, t2, q⟩ := hh _ s1
    rw [e1, e2]
    exact congrArg Except.ok ((t2.congr q).eq (C07_map_colors t1 f))
  · rw [he _ _ s, he _ _ s1]; rfl

theorem commutesWith_same {f : Col F → Col F} {op : PixelBuffer (Col F) → R (PixelBuffer (Col F))}
    {P : Nat → Nat → (Nat → Nat → Col F) → Nat → Nat → Col F}
    (hop : ∀ b w h px, Shows b w h px → ∃ b', op b = .ok b' ∧ Shows b' w h (P w h px))
    (e : ∀ w h px x y, P w h (fun x y => f (px x y)) x y = f (P w h px x y)) :
    CommutesWith f op := by
  refine commutesWith_of fun b w h px s => .inl ?_
  obtain ⟨b', e1, t1⟩ := hop b w h px s
  refine ⟨b', w, h, _, e1, t1, fun b₁ s₁ => ?_⟩
  obtain ⟨b₂, e2, t2⟩ := hop b₁ w h _ s₁
  exact ⟨b₂, _, e2, t2, fun x y _ _ => e w h px x y⟩

theorem conv_shuffle (p : Fin 3 → Fin 3) (w h : Nat) (px : Nat → Nat → Col F) (W H : Nat) (wt : Nat → Nat → F)
    (x y : Nat) : conv w h (fun x y => shuffle p (px x y)) W H wt x y = shuffle p (conv w h px W H wt x y) := by
  unfold conv
  rw [shuffle_perChannel]
  rfl

theorem blurred_shuffle (p : Fin 3 → Fin 3) (w h : Nat) (px : Nat → Nat → Col F) (r : Nat) (sigma : Option F)
    (x y : Nat) :
    blurred w h (fun x y => shuffle p (px x y)) r sigma x y = shuffle p (blurred w h px r sigma x y) :=
  conv_shuffle p w h px _ _ _ x y

theorem sharpened_shuffle (p : Fin 3 → Fin 3) (w h : Nat) (px : Nat → Nat → Col F) (r : Nat) (k : F)
    (sigma : Option F) (x y : Nat) :
    sharpened w h (fun x y => shuffle p (px x y)) r k sigma x y = shuffle p (sharpened w h px r k sigma x y) := by
  unfold sharpened
  rw [shuffle_perChannel]
  simp only [blurred_shuffle]
  have h : ∀ i, component (p i) (blurred w h px r sigma x y) = component i (shuffle p (blurred w h px r sigma x y)) := by
    intro i
    match i with
    | 0 => rfl
    | 1 => rfl
    | 2 => rfl
  rw [h, h, h]
  rfl

/-- C97: convolution with a table of any size. -/
theorem C97_convolution (p : Fin 3 → Fin 3) {k : Kernel F} {N : Nat} {wt : Nat → Nat → F} (hk : k.Holds N wt)
    (hN : N ≤ 1073741824) : CommutesWith (shuffle p) fun b => b.apply_kernel N k :=
  commutesWith_same (fun _ _ _ _ s => C10_apply_kernel s hk hN) fun w h px x y => conv_shuffle p w h px N N wt x y

theorem C97_convolution_dyn [LawfulScalar F] (p : Fin 3 → Fin 3) {k : KernelDyn F} {W H : Nat}
    {wt : Nat → Nat → F} (hk : k.Holds W H wt) (hlt : W * H < 4294967296) (hW : W ≤ 1073741824)
    (hH : H ≤ 1073741824) : CommutesWith (shuffle p) fun b => b.apply_kernel_dyn k :=
  commutesWith_same (fun _ _ _ _ s => C10_apply_kernel_dyn s hk hlt hW hH)
    fun w h px x y => conv_shuffle p w h px W H wt x y

/-- C97: Gaussian blur with any radius. -/
theorem C97_gaussian_blur [LawfulScalar F] (p : Fin 3 → Fin 3) (r : Nat) (sigma : Option F) :
    CommutesWith (shuffle p) fun b => gaussian_blur b r sigma := by
  rcases Nat.lt_or_ge 32767 r with hr | hr
  · exact commutesWith_of fun b w h px _ => .inr ⟨_, fun b₁ px₁ s => (C12_gaussian_blur s r sigma).2 hr⟩
  · exact commutesWith_same (fun _ _ _ _ s => blur_ok s r hr sigma)
      fun w h px x y => blurred_shuffle p w h px r sigma x y

/-- C97: unsharp mask. -/
theorem C97_unsharp [LawfulScalar F] (p : Fin 3 → Fin 3) (r : Nat) (hr : r ≤ 32767) (factor : F)
    (sigma : Option F) : CommutesWith (shuffle p) fun b => unsharp b r factor sigma :=
  commutesWith_same (fun _ _ _ _ s => sharpen_ok s r hr factor sigma)
    fun w h px x y => sharpened_shuffle p w h px r factor sigma x y

/-- C97: edge detection with both operators. -/
theorem C97_edge_detection (p : Fin 3 → Fin 3) (mode : EdgeDetection) :
    CommutesWith (shuffle p) fun b : PixelBuffer (Col F) => edge_detection b mode := by
  cases mode with
  | Sobel =>
    refine commutesWith_same (fun _ _ _ _ s => C47_sobel s) fun w h px x y => ?_
    simp only [conv_shuffle]
    exact (shuffle_mk p (fun ch => clamp01 (Scalar.sqrt (ch (conv w h px 3 3 sobelX x y) *. ch (conv w h px 3 3 sobelX x y)
          +. ch (conv w h px 3 3 sobelY x y) *. ch (conv w h px 3 3 sobelY x y)))) _).symm
  | Laplace =>
    refine commutesWith_same (fun _ _ _ _ s => C47_laplace s) fun w h px x y => ?_
    simp only [conv_shuffle]
    exact (shuffle_mk p (fun ch => ch (conv w h px 3 3 Spec.laplace x y)) _).symm

theorem bilinear_shuffle (p : Fin 3 → Fin 3) (w h : Nat) (px : Nat → Nat → Col F) (x y : F) :
    bilinear w h (fun x y => shuffle p (px x y)) x y = shuffle p (bilinear w h px x y) := by
  unfold bilinear
  rw [shuffle_perChannel]
  rfl

theorem bicubic_shuffle (p : Fin 3 → Fin 3) (w h : Nat) (px : Nat → Nat → Col F) (x y : F) :
    bicubic w h (fun x y => shuffle p (px x y)) x y = shuffle p (bicubic w h px x y) := by
  unfold bicubic
  rw [shuffle_perChannel]
  rfl

theorem windowed_shuffle (p : Fin 3 → Fin 3) (w h : Nat) (px : Nat → Nat → Col F) (N : Nat) (wx wy : Nat → F) (x y : F) :
    windowed w h (fun x y => shuffle p (px x y)) N wx wy x y = shuffle p (windowed w h px N wx wy x y) := by
  unfold windowed
  rw [shuffle_perChannel]
  rfl

theorem resized_shuffle (p : Fin 3 → Fin 3) (filter : FilterMode) (w h : Nat) (px : Nat → Nat → Col F)
    (nw nh x y : Nat) : resized filter w h (fun x y => shuffle p (px x y)) nw nh x y
      = shuffle p (resized filter w h px nw nh x y) := by
  cases filter with
  | Nearest => rfl
  | Bilinear => exact bilinear_shuffle p w h px _ _
  | Bicubic => exact bicubic_shuffle p w h px _ _
  | Lanczos3 => exact windowed_shuffle p w h px _ _ _ _ _
  | Auto =>
    unfold resized
    simp only
    split_ifs
    · exact bicubic_shuffle p w h px _ _
    · exact windowed_shuffle p w h px _ _ _ _ _
    · exact windowed_shuffle p w h px _ _ _ _ _

theorem rotated_shuffle (p : Fin 3 → Fin 3) (filter : FilterMode) (w h : Nat) (px : Nat → Nat → Col F) (angle : F)
    (bg : Col F) (x y : Nat) : rotated filter w h (fun x y => shuffle p (px x y)) angle (shuffle p bg) x y
      = shuffle p (rotated filter w h px angle bg x y) := by
  unfold rotated
  simp only
  split_ifs
  · cases filter with
    | Nearest => rfl
    | Bilinear => exact bilinear_shuffle p w h px _ _
    | Bicubic => exact bicubic_shuffle p w h px _ _
    | Lanczos3 => exact windowed_shuffle p w h px _ _ _ _ _
    | Auto => exact bicubic_shuffle p w h px _ _
  · rfl

end

section
variable {F : Type} [Scalar F] [Coords F]

/-- C97: resizing with every filter. -/
theorem C97_resize (p : Fin 3 → Fin 3) (filter : FilterMode) (nw nh : Nat)
    {b : PixelBuffer (Col F)} (hb : WellFormed b) (h0 : 0 < b.width)
    (hauto : filter = .Auto → b.width ≤ 134217728 ∧ b.height ≤ 134217728) :
    resize (b.map_colors (shuffle p)) nw nh filter = (resize b nw nh filter).map (·.map_colors (shuffle p)) := by
  obtain ⟨px, s⟩ := wf_shows Rgb.NONE hb
  have s1 := C07_map_colors s (shuffle p)
  by_cases hne : nw = b.width ∧ nh = b.height
  · rw [hne.1, hne.2, C18_resize_same b filter]
    exact C18_resize_same (b.map_colors (shuffle p)) filter
  by_cases hv : ValidSize nw nh
  · obtain ⟨b', e, t⟩ := C18_resize s h0 nw nh hv hne filter hauto
    obtain ⟨b₁, e₁, t₁⟩ := C18_resize s1 h0 nw nh hv hne filter hauto
    rw [e, e₁]
    exact congrArg Except.ok ((t₁.congr fun x y _ _ => resized_shuffle p filter _ _ px nw nh x y).eq
      (C07_map_colors t (shuffle p)))
  · rw [C18_resize_invalid hb nw nh hv, C18_resize_invalid s1.wellFormed nw nh hv]; rfl

/-- C97: rotation by every angle and with every filter, if the background is recoloured too. -/
theorem C97_rotate (p : Fin 3 → Fin 3) (angle : F) (bg : Col F) (filter : FilterMode)
    {b : PixelBuffer (Col F)} (hb : WellFormed b) :
    rotate (b.map_colors (shuffle p)) angle (shuffle p bg) filter
      = (rotate b angle bg filter).map (·.map_colors (shuffle p)) := by
  obtain ⟨px, s⟩ := wf_shows Rgb.NONE hb
  have s1 := C07_map_colors s (shuffle p)
  cases ha : Scalar.abs (angle -. lit 360) <. lit (1 / 8388608) with
  | true => rw [C21_rotate_360 _ _ _ _ ha, C21_rotate_360 _ _ _ _ ha]; rfl
  | false =>
    obtain ⟨b', e, t⟩ := C21_rotate s angle bg filter ha
    obtain ⟨b₁, e₁, t₁⟩ := C21_rotate s1 angle (shuffle p bg) filter ha
    rw [e, e₁]
    exact congrArg Except.ok ((t₁.congr fun x y _ _ => rotated_shuffle p filter _ _ px angle bg x y).eq
      (C07_map_colors t (shuffle p)))

end

/-! ## Examples -/

/-- Red and blue exchanged, and green copied: in exact arithmetic the image of one pixel (1/4, 1/2, 3/4). -/
example [Junk] : let b : PixelBuffer (Col ℝ) := ⟨1, 1, [⟨1/4, 1/2, 3/4, 1⟩]⟩
    WellFormed b ∧ b.map_colors (shuffle ![2, 1, 0]) = ⟨1, 1, [⟨3/4, 1/2, 1/4, 1⟩]⟩ ∧
    b.map_colors (shuffle fun _ => 1) = ⟨1, 1, [⟨1/2, 1/2, 1/2, 1⟩]⟩ :=
  ⟨⟨.inr ⟨by norm_num, by norm_num, by norm_num⟩, rfl⟩, rfl, rfl⟩

example [Junk] : (⟨[[0, 1, 0], [1, -4, 1], [0, 1, 0]]⟩ : Kernel ℝ).Holds 3 fun x y =>
    if x = 1 ∧ y = 1 then -4 else if x = 1 ∨ y = 1 then 1 else 0 := by
  simp [Kernel.Holds, List.range_succ]

end D10
