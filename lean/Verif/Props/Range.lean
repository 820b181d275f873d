import Verif.SpecRange
import Verif.Lemmas.Ensures

/-!
# Pictures stay in range (C118)

Whatever a careful program does, every channel of every picture is between 0 and 1, or not a number.
The commands of the command line never leave the range.
-/

namespace D10
open Scalar (isNan lit)
open LawfulScalar Spec

section
variable {F : Type} [Scalar F] [LawfulScalar F]

/-! ## Colours -/

theorem inRange_lit {q : ℚ} (h0 : 0 ≤ q) (h1 : q ≤ 1) : InRange (lit q : F) :=
  .inr ⟨le_of_lit h0, le_of_lit h1⟩

theorem inRange_clamp (x : F) : InRange (clamp01 x) := clamp01_range x

theorem new_pixel (r g b a : F) : PixelInRange (Rgb.new_with_alpha r g b a) :=
  ⟨new_with_alpha_inRange _ _ _ _, inRange_clamp _⟩

theorem new_pixel_opaque (r g b : F) : PixelInRange (Rgb.new r g b) :=
  ⟨⟨inRange_clamp _, inRange_clamp _, inRange_clamp _⟩, inRange_lit (by norm_num) (by norm_num)⟩

theorem none_pixel : PixelInRange (Rgb.NONE : Col F) :=
  have h := inRange_lit (F := F) (q := 0) (by norm_num) (by norm_num)
  ⟨⟨h, h, h⟩, h⟩

theorem white_pixel : PixelInRange (Rgb.WHITE : Col F) :=
  have h := inRange_lit (F := F) (q := 1) (by norm_num) (by norm_num)
  ⟨⟨h, h, h⟩, h⟩

theorem black_pixel : PixelInRange (Rgb.BLACK : Col F) :=
  have h := inRange_lit (F := F) (q := 0) (by norm_num) (by norm_num)
  ⟨⟨h, h, h⟩, inRange_lit (by norm_num) (by norm_num)⟩

theorem srgb_pixel (c : Col F) : PixelInRange (Srgb.to_rgb c) := new_pixel _ _ _ _

theorem hsl_pixel (c : Col F) : PixelInRange (Hsl.to_rgb c) :=
  ⟨hsl_to_rgb_inRange c, by rw [hsl_to_rgb_alpha]; exact inRange_clamp _⟩

theorem xyz_pixel {c : Col F} (h : InRange c.alpha) : PixelInRange (Xyz.to_rgb c) :=
  ⟨⟨inRange_clamp _, inRange_clamp _, inRange_clamp _⟩, h⟩

theorem channels_pixel {c : Col F} (h : InRange c.alpha) (f : F → F) :
    PixelInRange (Rgb.map_channels c f) := ⟨map_channels_inRange c f, h⟩

omit [LawfulScalar F] in
theorem inRange_max {x y : F} (hx : InRange x) (hy : InRange y) : InRange (Scalar.max x y) := by
  unfold Scalar.max; repeat' split
  all_goals assumption

omit [LawfulScalar F] in
theorem inRange_min {x y : F} (hx : InRange x) (hy : InRange y) : InRange (Scalar.min x y) := by
  unfold Scalar.min; repeat' split
  all_goals assumption

theorem rgb_max_inRange {c : Col F} (h : ColourInRange c) : InRange (Rgb.max c) :=
  inRange_max (inRange_max (inRange_max (inRange_lit (by norm_num) (by norm_num)) h.1) h.2.1) h.2.2

theorem rgb_min_inRange {c : Col F} (h : ColourInRange c) : InRange (Rgb.min c) :=
  inRange_min (inRange_min (inRange_min (inRange_lit (by norm_num) (by norm_num)) h.1) h.2.1) h.2.2

omit [LawfulScalar F] in
theorem to_hsv_value (c : Col F) : (Rgb.to_hsv c).c2 = Rgb.max c := by
  unfold Rgb.to_hsv; simp only; split <;> rfl

theorem hsv_pixel {c : Col F} (h : InRange c.c2) (ha : InRange c.alpha) : PixelInRange (Hsv.to_rgb c) := by
  unfold Hsv.to_rgb
  simp only
  split
  · exact ⟨⟨h, h, h⟩, ha⟩
  · split <;> exact new_pixel _ _ _ _

/-! ## Operations -/

theorem range_resize {b : PixelBuffer (Col F)} (hb : All PixelInRange b) (w h : Nat) (filter : FilterMode)
    (hf : clampingFilter filter = true ∨ filter = .Auto ∧ (b.width ≤ w ∨ b.height ≤ h)) :
    Ens (resize b w h filter) (All PixelInRange) := by
  have near : ∀ x y : F, ∀ i j, Ens (resize_pixel_nearest b i j x y) PixelInRange :=
    fun x y i j => all_get_clamped hb _ _
  have lin : ∀ x y : F, ∀ i j, Ens (resize_pixel_bilinear b i j x y) PixelInRange :=
    fun x y i j => ens_any fun _ => ens_any fun _ => ens_any fun _ => ens_any fun _ => ens_any fun _ =>
      ens_any fun _ => ens_any fun _ => ens_any fun _ => ens_pure (new_pixel _ _ _ _)
  have cub : ∀ x y : F, Ens (get_pixel_bicubic b x y) PixelInRange := by
    intro x y
    unfold get_pixel_bicubic
    simp only
    repeat with_reducible refine ens_any fun _ => ?_
    exact ens_pure (new_pixel _ _ _ _)
  unfold resize
  split
  · exact ens_ok hb
  · cases filter with
    | Nearest => exact all_func fun i j => near _ _ _ _
    | Bilinear => exact all_func fun i j => lin _ _ _ _
    | Bicubic => exact all_func fun i j => cub _ _
    | Lanczos3 => rcases hf with h | h <;> cases h; cases ‹_ = _›
    | Auto =>
      simp only
      rw [if_pos]
      · exact all_func fun i j => cub _ _
      · rcases hf with h | h
        · cases h
        · simpa using h.2

theorem range_rotate {b : PixelBuffer (Col F)} (hb : All PixelInRange b) (a : F) {bg : Col F}
    (hbg : PixelInRange bg) (filter : FilterMode) (hf : filter ≠ .Lanczos3) :
    Ens (rotate b a bg filter) (All PixelInRange) := by
  have run : ∀ f : PixelBuffer (Col F) → F → F → R (Option (Col F)),
      (∀ x y, Ens (f b x y) fun o => ∀ c, o = some c → PixelInRange c) →
      Ens (rotate_with_fn b a bg f) (All PixelInRange) := by
    intro f h
    unfold rotate_with_fn
    refine ens_any fun _ => ens_any fun _ => all_func fun i j => ?_
    refine ens_bind (h _ _) fun o ho => ens_pure ?_
    cases o with
    | none => exact hbg
    | some c => exact ho c rfl
  have lin : ∀ x y : F, Ens (get_pixel_bilinear b x y) PixelInRange := by
    intro x y
    unfold get_pixel_bilinear
    simp only
    repeat with_reducible refine ens_any fun _ => ?_
    exact ens_pure (new_pixel _ _ _ _)
  have cub : ∀ x y : F, Ens (get_pixel_bicubic b x y) PixelInRange := by
    intro x y
    unfold get_pixel_bicubic
    simp only
    repeat with_reducible refine ens_any fun _ => ?_
    exact ens_pure (new_pixel _ _ _ _)
  have some_of : ∀ {x : R (Col F)}, Ens x PixelInRange →
      Ens (do return some (← x)) fun o => ∀ c, o = some c → PixelInRange c :=
    fun h => ens_bind h fun c hc => ens_pure fun d hd => by cases hd; exact hc
  have none_of : Ens (pure none : R (Option (Col F))) fun o => ∀ c, o = some c → PixelInRange c :=
    ens_pure fun c hc => by cases hc
  have bil : ∀ x y, Ens (rotate_pixel_bilinear b x y) fun o => ∀ c, o = some c → PixelInRange c := by
    intro x y; unfold rotate_pixel_bilinear; split
    · exact some_of (lin _ _)
    · exact none_of
  have bic : ∀ x y, Ens (rotate_pixel_bicubic b x y) fun o => ∀ c, o = some c → PixelInRange c := by
    intro x y; unfold rotate_pixel_bicubic; split
    · exact some_of (cub _ _)
    · exact none_of
  unfold rotate
  split
  · exact ens_ok hb
  · cases filter with
    | Nearest => exact run _ fun x y => all_get_optional hb _ _
    | Bilinear => exact run _ bil
    | Bicubic => exact run _ bic
    | Auto => exact run _ bic
    | Lanczos3 => exact absurd rfl hf

theorem range_unsharp (b : PixelBuffer (Col F)) (r : Nat) (f : F) (s : Option F) :
    Ens (unsharp b r f s) (All PixelInRange) := by
  unfold unsharp
  refine ens_any fun _ => ens_any fun _ => ens_any fun _ => all_enumerated fun x y c _ => ?_
  exact ens_any fun _ => ens_pure (new_pixel _ _ _ _)

theorem range_despeckle {b : PixelBuffer (Col F)} (hb : All PixelInRange b) (t : F) (n : Nat) :
    Ens (despeckle b t n) (All PixelInRange) := by
  refine all_enumerated fun x y c hc => ?_
  have h := hb c hc
  simp only
  split
  · refine ens_any fun _ => ?_
    split
    · exact ens_any fun _ => ens_pure (new_pixel _ _ _ _)
    · exact ens_pure h
  · exact ens_pure h

theorem range_snn (b : PixelBuffer (Col F)) (r : Nat) (c : Bool) :
    Ens (symmetric_nearest_neighbor b r c) (All PixelInRange) :=
  all_func fun _ _ => ens_any fun _ => ens_any fun _ => ens_pure (new_pixel _ _ _ _)

omit [LawfulScalar F] in
theorem range_compose2 (a b : PixelBuffer (Col F)) {f : Col F → Col F → Col F}
    (hf : ∀ c d, PixelInRange (f c d)) : Ens (compose2 a b f) (All PixelInRange) := by
  refine all_compose (P := fun _ => True) (fun _ _ _ _ => trivial) trivial fun x y l _ => ?_
  split
  · exact ens_ok (hf _ _)
  · exact ens_error

theorem range_sobel (b : PixelBuffer (Col F)) : Ens (edge_detection_sobel b) (All PixelInRange) := by
  unfold edge_detection_sobel
  refine ens_any fun _ => ens_any fun _ =>
    all_compose (P := fun _ => True) (fun _ _ _ _ => trivial) trivial fun x y l _ => ?_
  match l with
  | [_, _] => exact ens_ok (new_pixel_opaque _ _ _)
  | [] | [_] | _ :: _ :: _ :: _ => exact ens_error

theorem range_stretch {b : PixelBuffer (Col F)} (hb : All PixelInRange b) (t : F) :
    Ens (stretch_contrast b t) (All PixelInRange) := by
  unfold stretch_contrast
  refine ens_any fun _ => ?_
  simp only
  split
  · exact ens_pure (all_map fun c hc => channels_pixel (hb c hc).2 _)
  · exact ens_pure hb

theorem range_equalize (b : PixelBuffer (Col F)) (mode : EqualizeMode) :
    Ens (equalize b mode) (All PixelInRange) := by
  cases mode with
  | Rgb =>
    exact ens_any fun _ => ens_any fun _ => ens_any fun _ => all_mapM fun c _ =>
      ens_any fun _ => ens_any fun _ => ens_any fun _ => ens_pure (new_pixel _ _ _ _)
  | Srgb =>
    exact ens_any fun _ => ens_any fun _ => ens_any fun _ => all_mapM fun c _ =>
      ens_any fun _ => ens_any fun _ => ens_any fun _ => ens_pure (srgb_pixel _)
  | Saturation => exact ens_any fun _ => all_mapM fun c _ => ens_any fun _ => ens_pure (hsl_pixel _)
  | Lightness => exact ens_any fun _ => all_mapM fun c _ => ens_any fun _ => ens_pure (hsl_pixel _)
  | SaturationLightness =>
    exact ens_any fun _ => ens_any fun _ => all_mapM fun c _ => ens_any fun _ => ens_any fun _ =>
      ens_pure (hsl_pixel _)

theorem range_balance {b : PixelBuffer (Col F)} (hb : All PixelInRange b) (mode : BalanceMode) (t : F)
    (hr : mode ≠ .Rgb) (hv : mode ≠ .Hsv) : Ens (balance b mode t) (All PixelInRange) := by
  cases mode with
  | Rgb => exact absurd rfl hr
  | Hsv => exact absurd rfl hv
  | Srgb => exact ens_any fun _ => all_mapM fun c _ => ens_any fun _ => ens_any fun _ =>
      ens_pure (srgb_pixel _)
  | Hsl => exact ens_any fun _ => all_mapM fun c _ => ens_any fun _ => ens_any fun _ =>
      ens_pure (hsl_pixel _)
  | Lch =>
    refine ens_any fun pts => all_mapM fun c hc => ?_
    refine ens_bind (P := fun d : List F => ∀ a, d[3]? = some a → InRange a) ?_ fun d hd => ?_
    · refine ens_forRange ?_ fun i hi d hd => ?_
      · intro a ha
        cases ha
        exact (hb c hc).2
      · refine ens_any fun p => ens_any fun v => ?_
        intro d' hd' a ha
        unfold setIndex at hd'
        split at hd'
        · cases hd'
          rw [List.getElem?_set_ne (by omega)] at ha
          exact hd a ha
        · cases hd'
    · intro c' hc'
      match d, hd, hc' with
      | [x, y, z, w], hd, hc' =>
        cases hc'
        exact xyz_pixel (hd w rfl)

theorem range_blend {a b : PixelBuffer (Col F)} (ha : All PixelInRange a) (hb : All PixelInRange b)
    (op : BlendOp) (i : F) : Ens (blend_image a b op i) (All PixelInRange) := by
  have run : ∀ f : Col F → Col F → F → Col F,
      (∀ c d, PixelInRange c → PixelInRange d → PixelInRange (f c d i)) →
      Ens (blend_image_with_func a b i f) (All PixelInRange) := by
    intro f h
    refine all_func fun x y => ?_
    refine ens_bind (all_get_optional ha _ _) fun o1 h1 => ?_
    refine ens_bind (all_get_optional hb _ _) fun o2 h2 => ?_
    cases o1 with
    | none => cases o2 with
      | none => exact ens_pure none_pixel
      | some d => exact ens_pure (h2 d rfl)
    | some c => cases o2 with
      | none => exact ens_pure (h1 c rfl)
      | some d => exact ens_pure (h c d (h1 c rfl) (h2 d rfl))
  have lch : ∀ c : Col F, InRange c.alpha → PixelInRange (Lch.rgb c) := fun c h => xyz_pixel h
  cases op with
  | Normal => exact run _ fun c d _ _ => new_pixel _ _ _ _
  | Addition => exact run _ fun c d _ _ => new_pixel _ _ _ _
  | Subtract => exact run _ fun c d _ _ => new_pixel _ _ _ _
  | Darken => exact run _ fun c d _ _ => new_pixel _ _ _ _
  | Lighten => exact run _ fun c d _ _ => new_pixel _ _ _ _
  | HslDarken => exact run _ fun c d _ _ => hsl_pixel _
  | HslLighten => exact run _ fun c d _ _ => hsl_pixel _
  | LchDarken => exact run _ fun c d hc _ => lch _ hc.2
  | LchLighten => exact run _ fun c d hc _ => lch _ hc.2
  | LchHue => exact run _ fun c d hc _ => lch _ hc.2
  | LchSaturation => exact run _ fun c d hc _ => lch _ hc.2
  | LchColor => exact run _ fun c d hc _ => lch _ hc.2

theorem range_lightness {D : Type} [Scalar D] [Widen F D] {b : PixelBuffer (Col F)}
    (hb : All PixelInRange b) (f : F) : All PixelInRange (optimize_lightness D b f) :=
  all_map fun c hc => channels_pixel (hb c hc).2 _

theorem range_saturation {b : PixelBuffer (Col F)} (hb : All PixelInRange b) (o : F)
    (mode : SaturationMode) : All PixelInRange (optimize_saturation b o mode) := by
  refine all_map fun c hc => ?_
  have h := hb c hc
  cases mode with
  | Hsl => exact hsl_pixel _
  | Hsv => exact hsv_pixel (by show InRange (Rgb.to_hsv c).c2; rw [to_hsv_value]; exact rgb_max_inRange h.1) h.2
  | Lch => exact xyz_pixel h.2

theorem range_palette {b p : PixelBuffer (Col F)} (hp : All PixelInRange p) :
    All PixelInRange (apply_palette b .rgb p) ∧ All PixelInRange (apply_palette_in_place b .rgb p) := by
  have key : ∀ c : Col F, PixelInRange (get_color_from_palette (p.convert .rgb (.lab .D65 .O2)) c) := by
    intro c
    unfold get_color_from_palette
    simp only
    refine xyz_pixel ?_
    have fold : ∀ (l : List (Col F)) (s : Option (Col F) × F) (t : Col F),
        (∀ c ∈ l, InRange c.alpha) → InRange (s.1.getD Rgb.NONE).alpha →
        InRange ((l.foldl (paletteStep t) s).1.getD Rgb.NONE).alpha := by
      intro l
      induction l with
      | nil => intro s t _ h; exact h
      | cons a as ih =>
        intro s t hl hs
        refine ih _ t (fun c hc => hl c (.tail _ hc)) ?_
        unfold paletteStep
        simp only
        split
        · exact hl a (.head _)
        · exact hs
    refine fold _ _ _ ?_ none_pixel.2
    intro d hd
    obtain ⟨e, he, rfl⟩ := List.mem_map.1 hd
    exact (hp e he).2
  exact ⟨all_map fun c _ => key c, all_mod fun c _ => key c⟩

theorem range_temperature {D : Type} [Scalar D] [Widen F D] (hpow : PowKeeps F) {b : PixelBuffer (Col F)}
    (o n t : F) : Ens (change_color_temperature D b o n t) (All PixelInRange) := by
  unfold change_color_temperature
  refine ens_any fun _ => ens_pure ?_
  have pw : ∀ (b : PixelBuffer (Col F)) (p : F), All PixelInRange b →
      All PixelInRange (if lit 0 <. p then b.mod_colors fun c => { c with c0 := Scalar.powf c.c0 p } else b) ∧
      All PixelInRange (if lit 0 <. p then b.mod_colors fun c => { c with c2 := Scalar.powf c.c2 p } else b) := by
    intro b p hb
    constructor
    · split
      · exact all_mod fun c hc => ⟨⟨hpow _ _ (hb c hc).1.1 ‹_›, (hb c hc).1.2⟩, (hb c hc).2⟩
      · exact hb
    · split
      · exact all_mod fun c hc => ⟨⟨(hb c hc).1.1, (hb c hc).1.2.1, hpow _ _ (hb c hc).1.2.2 ‹_›⟩, (hb c hc).2⟩
      · exact hb
  refine (pw _ _ ((pw _ _ ?_).1)).2
  repeat' split
  all_goals exact all_map (Q := PixelInRange) fun c _ => new_pixel (F := F) _ _ _ _

theorem range_noise {σ : Type} (g : Rng σ F) {b : PixelBuffer (Col F)} (hb : All PixelInRange b) (a : F) :
    EnsS (random_noise g .rgb b a) (All PixelInRange) ∧
    EnsS (add_random_noise g .rgb b a) (All PixelInRange) ∧
    EnsS (gaussian_noise g .rgb b a) (All PixelInRange) ∧
    EnsS (add_gaussian_noise g .rgb b a) (All PixelInRange) ∧
    EnsS (salt_n_pepper_noise g b a) (All PixelInRange) ∧
    EnsS (add_salt_n_pepper_noise g b a) (All PixelInRange) ∧
    EnsS (rgb_noise g b a) (All PixelInRange) ∧
    EnsS (add_rgb_noise g b a) (All PixelInRange) := by
  have one : ∀ (draw : σ → F × σ) (c : Col F),
      EnsS (try_map_color_channels .rgb c (noiseChannel draw a)) PixelInRange :=
    fun draw c => ensS_any fun _ => ensS_any fun _ => ensS_any fun _ => ensS_pure (new_pixel _ _ _ _)
  have salt : ∀ c : Col F, PixelInRange c → EnsS (salt_n_pepper g c a) PixelInRange := by
    intro c hc
    refine ensS_any fun _ => ?_
    split
    · exact ensS_pure black_pixel
    · split
      · exact ensS_pure white_pixel
      · exact ensS_pure hc
  have dot : ∀ c : Col F, PixelInRange c → EnsS (rgb_noise_for_pixel g c a) PixelInRange := by
    intro c hc
    have h1 : InRange (lit 1 : F) := inRange_lit (by norm_num) (by norm_num)
    refine ensS_any fun _ => ?_
    split
    · refine ensS_any fun n => ?_
      split
      · exact ensS_pure ⟨⟨h1, hc.1.2⟩, hc.2⟩
      · exact ensS_pure ⟨⟨hc.1.1, h1, hc.1.2.2⟩, hc.2⟩
      · exact ensS_pure ⟨⟨hc.1.1, hc.1.2.1, h1⟩, hc.2⟩
    · exact ensS_pure hc
  exact ⟨all_mapS fun c _ => one _ c, all_modS fun c _ => one _ c, all_mapS fun c _ => one _ c,
    all_modS fun c _ => one _ c, all_mapS fun c hc => salt c (hb c hc),
    all_modS fun c hc => salt c (hb c hc), all_mapS fun c hc => dot c (hb c hc),
    all_modS fun c hc => dot c (hb c hc)⟩

theorem range_drawing (b : PixelBuffer (Col F)) (r : Nat) (mode : DrawingMode) :
    Ens (drawing b r mode) (All PixelInRange) := by
  unfold drawing
  refine ens_any fun _ => ens_any fun _ => ens_any fun _ => ens_any fun d0 => ?_
  refine ens_bind (range_unsharp d0 _ _ _) fun d1 h1 => ?_
  refine ens_bind (range_despeckle h1 _ _) fun d2 h2 => ?_
  cases mode with
  | Gray => exact ens_pure h2
  | Colored => exact range_compose2 _ _ fun c d => hsl_pixel _
  | ReducedColors =>
    unfold merge_color_reduced
    simp only
    repeat with_reducible refine ens_any fun _ => ?_
    exact ens_pure (all_map fun c _ => hsl_pixel _)

/-! ## Decoders -/

omit [Scalar F] [LawfulScalar F] in
theorem ensD_thrown {α β : Type} {e : DecodingError} {f : α → Dec β} {Q : β → Prop} :
    EnsD (throw e >>= f) Q :=
  ensD_bind (P := fun _ => False) ensD_throw fun _ h => h.elim

theorem range_read_into (img : DynamicImage F) : EnsD (read_into_buffer img) (All PixelInRange) := by
  have key : ∀ {α : Type} (l : List α) (f : α → Col F),
      EnsD (pure (l.map fun p => Srgb.to_rgb (f p)) : Dec (List (Col F))) fun l => ∀ c ∈ l, PixelInRange c := by
    intro α l f
    refine ensD_pure fun c hc => ?_
    obtain ⟨p, _, rfl⟩ := List.mem_map.1 hc
    exact srgb_pixel _
  unfold read_into_buffer
  simp only
  split
  · exact ensD_thrown
  split
  all_goals first
    | exact ensD_thrown
    | exact ensD_bind (key _ _) fun l hl => ensD_lift (all_raw hl)

theorem range_decode (libs : Libs F) (input : List Nat) (format : Format) :
    EnsD (decode libs input format) (All PixelInRange) := by
  have key : ∀ {α : Type} (l : List α) (f : α → Col F),
      EnsD (pure (l.map fun p => Srgb.to_rgb (f p)) : Dec (List (Col F))) fun l => ∀ c ∈ l, PixelInRange c := by
    intro α l f
    refine ensD_pure fun c hc => ?_
    obtain ⟨p, _, rfl⟩ := List.mem_map.1 hc
    exact srgb_pixel _
  have chunk : ∀ (n : Nat) (data : List Nat) (f : List Nat → R (Col F)), (∀ l, Ens (f l) PixelInRange) →
      EnsD (perChunk n data f) fun l => ∀ c ∈ l, PixelInRange c :=
    fun n data f hf => ensD_lift (ens_mapM _ fun l _ => hf l)
  cases format with
  | Jpeg =>
    show EnsD (decode_jpeg libs input) _
    unfold decode_jpeg
    refine ensD_any fun data => ?_
    split
    · exact ensD_throw
    · simp only
      split
      · exact ensD_bind (key _ _) fun l hl => ensD_lift (all_raw hl)
      all_goals refine ensD_bind ?_ fun l hl => ensD_lift (all_raw hl)
      · exact chunk _ _ _ fun l => ens_any fun _ => ens_any fun _ => ens_pure (srgb_pixel _)
      · exact chunk _ _ _ fun l => ens_any fun _ => ens_any fun _ => ens_any fun _ =>
          ens_pure (srgb_pixel _)
      · exact chunk _ _ _ fun l => ens_any fun _ => ens_any fun _ => ens_any fun _ => ens_any fun _ =>
          ens_pure (srgb_pixel _)
  | Png =>
    show EnsD (decode_png libs input) _
    unfold decode_png
    simp only
    refine ensD_any fun reader => ?_
    split
    · exact ensD_thrown
    refine ensD_any fun n => ?_
    split
    all_goals first
      | exact ensD_thrown
      | refine ensD_any fun buffer => ?_
    all_goals first
      | exact ensD_bind (key _ _) fun l hl => ensD_lift (all_raw hl)
      | refine ensD_bind (chunk _ _ _ fun l => ?_) fun l hl => ensD_lift (all_raw hl)
    all_goals
      repeat with_reducible refine ens_any fun _ => ?_
      exact ens_pure (srgb_pixel _)
  | Gif =>
    show EnsD (decode_gif libs input) _
    unfold decode_gif
    refine ensD_any fun o => ?_
    cases o with
    | none => exact ensD_throw
    | some frame =>
      refine ensD_bind (chunk _ _ _ fun l => ?_) fun l hl => ?_
      · exact ens_any fun _ => ens_any fun _ => ens_any fun _ => ens_any fun _ => ens_pure (srgb_pixel _)
      · simp only
        split
        · exact ensD_thrown
        · exact ensD_lift (all_raw hl)
  | Bmp => exact ensD_any fun _ => range_read_into _
  | Ico => exact ensD_any fun _ => range_read_into _
  | WebP =>
    show EnsD (decode_webp libs input) _
    unfold decode_webp
    simp only
    split
    · exact ensD_thrown
    split
    · exact ensD_throw
    · exact ensD_lift (all_func fun x y => ens_any fun _ => ens_any fun _ => ens_any fun _ =>
        ens_any fun _ => ens_pure (srgb_pixel _))

theorem range_decode_buffer (libs : Libs F) (bytes : List Nat) :
    EnsD (decode_buffer libs bytes) (All PixelInRange) :=
  ensD_any fun _ => range_decode _ _ _

theorem range_decode_file (libs : Libs F) (fs : FS) (path : String) :
    EnsD (decode_file libs fs path) (All PixelInRange) := by
  unfold decode_file
  split
  · exact ensD_throw
  · split
    · exact range_decode _ _ _
    · split
      · exact range_decode _ _ _
      · exact ensD_throw

theorem range_jpeg [FloatBytes F] (libs : Libs F) {b : PixelBuffer (Col F)} (hb : All PixelInRange b)
    (q : Nat) (preserve : Bool) : Ens (jpeg_quality (jpegCodec libs) b q preserve) (All PixelInRange) := by
  have copy : ∀ ins outs : List (Col F), (∀ c ∈ ins, PixelInRange c) → (∀ c ∈ outs, PixelInRange c) →
      ∀ c ∈ copyAlpha ins outs, PixelInRange c := by
    intro ins
    induction ins with
    | nil => intro outs _ h; exact h
    | cons i ins ih =>
      intro outs hi ho
      cases outs with
      | nil => exact ho
      | cons o outs =>
        intro c hc
        rcases List.mem_cons.1 hc with rfl | hc
        · exact ⟨(ho o (.head _)).1, (hi i (.head _)).2⟩
        · exact ih outs (fun c h => hi c (.tail _ h)) (fun c h => ho c (.tail _ h)) c hc
  have codec : ∀ out, jpegCodec libs b q = some out → All PixelInRange out := by
    intro out h
    unfold jpegCodec at h
    split at h
    · split at h
      · cases h
        exact range_decode_buffer libs _ _ ‹_›
      · cases h
    · cases h
  unfold jpeg_quality
  split
  · exact ens_error
  · rename_i out h
    split
    · exact ens_ok (copy _ _ hb (codec out h))
    · exact ens_ok (codec out h)

/-! ## Images -/

/-- Every image of a careful program is in range. -/
theorem C118_careful {D : Type} [Scalar D] [Widen F D] [FloatBytes F] (hpow : PowKeeps F)
    {libs : Libs F} {img : Image F} (h : Careful D libs img) : ImageInRange img := by
  have nobg : ∀ {b : PixelBuffer (Col F)}, All PixelInRange b →
      ImageInRange (Image.new_from_buffer b) := fun hb => ⟨hb, fun c h => by cases h⟩
  have meta' : ∀ {i : Image F} {b : PixelBuffer (Col F)}, ImageInRange i → All PixelInRange b →
      ImageInRange (Image.new_from_buffer_with_meta i b) := fun hi hb => ⟨hb, hi.2⟩
  have lift : ∀ {i i' : Image F} {x : R (PixelBuffer (Col F))}, ImageInRange i → Ens x (All PixelInRange) →
      (do return Image.new_from_buffer_with_meta i (← x)) = Except.ok i' → ImageInRange i' :=
    fun hi hx h => ens_bind hx (fun b hb => ens_pure (meta' hi hb)) _ h
  have liftS : ∀ {σ : Type} {i i' : Image F} {s s' : σ} {x : StateT σ R (PixelBuffer (Col F))},
      ImageInRange i → EnsS x (All PixelInRange) →
      (do return Image.new_from_buffer_with_meta i (← x) : StateT σ R (Image F)) s = .ok (i', s') →
      ImageInRange i' :=
    fun hi hx h => ensS_bind hx (fun b hb => ensS_pure (meta' hi hb)) _ _ h
  have bgOf : ∀ {i : Image F}, ImageInRange i → PixelInRange (i.bg_color.getD Rgb.NONE) := by
    intro i hi
    cases h : i.bg_color with
    | none => exact none_pixel
    | some c => exact hi.2 c h
  induction h with
  | new w h img e => exact ens_bind (all_new none_pixel) (fun b hb => ens_pure (nobg hb)) _ e
  | new_with_color w h c img hc e =>
    exact ens_bind (all_new hc) (fun b hb => ens_pure (nobg hb)) _ e
  | new_from_raw w h d img hd e => exact ens_bind (all_raw hd) (fun b hb => ens_pure (nobg hb)) _ e
  | new_from_buffer b hb => exact nobg hb
  | new_from_raw_with_meta img w h d img' _ hd e ih => exact lift ih (all_raw hd) e
  | new_from_buffer_with_meta img b _ hb ih => exact meta' ih hb
  | «open» fs path img e =>
    exact ensD_bind (range_decode_file libs fs path) (fun b hb => ensD_pure (nobg hb)) _ e
  | read_from_buffer bytes img e =>
    exact ensD_bind (range_decode_buffer libs bytes) (fun b hb => ensD_pure (nobg hb)) _ e
  | mod_colors img f _ hf ih => exact ⟨all_mod fun c hc => hf c (ih.1 c hc), ih.2⟩
  | map_colors img f s s' img' _ hf e ih =>
    exact liftS ih (all_mapS (f := f) fun c hc s p e => hf c (ih.1 c hc) s p.1 p.2 e) e
  | mod_colors_enumerated img f img' _ hf e ih =>
    exact ens_bind (all_mod_enumerated fun x y c hc c' h => hf x y c c' (ih.1 c hc) h)
      (fun b hb => ens_pure ⟨hb, ih.2⟩) _ e
  | map_colors_enumerated img f img' _ hf e ih =>
    exact lift ih (all_enumerated fun x y c hc c' h => hf x y c c' (ih.1 c hc) h) e
  | put_pixel img x y c img' _ hc e ih =>
    exact ens_bind (all_put ih.1 x y hc) (fun b hb => ens_pure ⟨hb, ih.2⟩) _ e
  | crop img x y w h img' _ e ih => exact lift ih (all_crop ih.1 none_pixel x y w h) e
  | flip_horizontal img img' _ e ih => exact lift ih (all_moves ih.1 none_pixel).1 e
  | flip_vertical img img' _ e ih => exact lift ih (all_moves ih.1 none_pixel).2.1 e
  | rotate90 img img' _ e ih => exact lift ih (all_moves ih.1 none_pixel).2.2.1 e
  | rotate180 img img' _ e ih => exact lift ih (all_moves ih.1 none_pixel).2.2.2.1 e
  | rotate270 img img' _ e ih => exact lift ih (all_moves ih.1 none_pixel).2.2.2.2 e
  | rotate img a filter img' _ hf e ih => exact lift ih (range_rotate ih.1 a (bgOf ih) filter hf) e
  | edge_detection img img' _ e ih => exact lift ih (range_sobel _) e
  | resize img w h filter img' _ hf e ih => exact lift ih (range_resize ih.1 w h filter (.inl hf)) e
  | enlarge img w h img' _ hwh e ih => exact lift ih (range_resize ih.1 w h .Auto (.inr ⟨rfl, hwh⟩)) e
  | resize_pct img p filter img' _ hf e ih => exact lift ih (range_resize ih.1 _ _ filter (.inl hf)) e
  | with_jpeg_quality img q preserve img' _ e ih => exact lift ih (range_jpeg libs ih.1 q preserve) e
  | random_noise img g a s s' img' _ e ih => exact liftS ih (range_noise g ih.1 a).1 e
  | add_random_noise img g a s s' img' _ e ih => exact liftS ih (range_noise g ih.1 a).2.1 e
  | gaussian_noise img g a s s' img' _ e ih => exact liftS ih (range_noise g ih.1 a).2.2.1 e
  | add_gaussian_noise img g a s s' img' _ e ih => exact liftS ih (range_noise g ih.1 a).2.2.2.1 e
  | salt_n_pepper_noise img g a s s' img' _ e ih => exact liftS ih (range_noise g ih.1 a).2.2.2.2.1 e
  | add_salt_n_pepper_noise img g a s s' img' _ e ih =>
    exact liftS ih (range_noise g ih.1 a).2.2.2.2.2.1 e
  | rgb_noise img g a s s' img' _ e ih => exact liftS ih (range_noise g ih.1 a).2.2.2.2.2.2.1 e
  | add_rgb_noise img g a s s' img' _ e ih => exact liftS ih (range_noise g ih.1 a).2.2.2.2.2.2.2 e
  | unsharp img r f sigma img' _ e ih => exact lift ih (range_unsharp _ _ _ _) e
  | balance img mode t img' _ hr hv e ih => exact lift ih (range_balance ih.1 mode t hr hv) e
  | blend img other op i img' _ _ e ih ih' => exact lift ih (range_blend ih.1 ih'.1 op i) e
  | compose images d f s s' img' _ hd hf e ih =>
    refine ensS_bind (all_composeS (P := PixelInRange) (f := f) (fun b hb => ?_) hd fun x y l hl s p e => hf x y l hl s p.1 p.2 e)
      (fun b hb => ?_) _ _ e
    · obtain ⟨i, hi, rfl⟩ := List.mem_map.1 hb
      exact (ih i hi).1
    · refine ensS_bind (ensS_lift (ens_index (Q := ImageInRange) ih _)) fun i hi => ensS_pure (meta' hi hb)
  | drawing img r mode img' _ e ih => exact lift ih (range_drawing _ _ _) e
  | interlace img o img' _ e ih => exact lift ih (all_interlace ih.1 o) e
  | despeckle img t n img' _ e ih => exact lift ih (range_despeckle ih.1 _ _) e
  | stretch_contrast img t img' _ e ih => exact lift ih (range_stretch ih.1 _) e
  | equalize img mode img' _ e ih => exact lift ih (range_equalize _ _) e
  | symmetric_nearest_neighbor img r c img' _ e ih => exact lift ih (range_snn _ _ _) e
  | change_color_temperature img o n t img' _ e ih => exact lift ih (range_temperature hpow _ _ _) e
  | optimize_color_temperature img f t img' _ e ih =>
    exact lift ih (range_temperature hpow _ _ _) e
  | optimize_lightness img f _ ih => exact meta' ih (range_lightness ih.1 f)
  | optimize_saturation img o mode _ ih => exact meta' ih (range_saturation ih.1 o mode)
  | apply_palette img palette _ _ ih ih' => exact meta' ih (range_palette ih'.1).1
  | apply_palette_in_place img palette _ _ ih ih' => exact ⟨(range_palette ih'.1).2, ih.2⟩

end

end D10
