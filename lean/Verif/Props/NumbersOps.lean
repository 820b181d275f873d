import Verif.Lemmas.NumbersOps
import Verif.Lemmas.NumbersDrawing
import Verif.SpecTame
import Verif.Props.Image

/-!
# Programs that work with numbers make pictures of numbers

C123.
-/

namespace D10
open Scalar (lit)
open Spec

section
variable [Libm b32] [FloatBytes F32]

/-- The images of a program that works with numbers are among those of all programs, and hold numbers. -/
theorem tame_keeps {D : Type} [Scalar D] [Widen F32 D] (hp : PowGivesNumbers) (hq : SqrtGivesNumbers) (he : ExpInUnit)
    (hm : SqrtMild) (ht : SinCosInUnit) {libs : Libs F32} (hh : Honest libs) (hl : LibsGiveNumbers libs) {img : Image F32} (h : Tame libs img) :
    Made D libs img ∧ ImageOfNumbers img := by
  have none_unit : UnitCol (Rgb.NONE : Col F32) := ⟨lit0_unit, lit0_unit, lit0_unit, lit0_unit⟩
  have nobg : ∀ {b : PixelBuffer (Col F32)}, All UnitCol b →
      ImageOfNumbers (Image.new_from_buffer b) := fun hb => ⟨hb, fun c h => by cases h⟩
  have meta' : ∀ {i : Image F32} {b : PixelBuffer (Col F32)}, ImageOfNumbers i → All UnitCol b →
      ImageOfNumbers (Image.new_from_buffer_with_meta i b) := fun hi hb => ⟨hb, hi.2⟩
  have lift : ∀ {i i' : Image F32} {x : R (PixelBuffer (Col F32))}, ImageOfNumbers i → Ens x (All UnitCol) →
      (do return Image.new_from_buffer_with_meta i (← x)) = Except.ok i' → ImageOfNumbers i' :=
    fun hi hx h => ens_bind hx (fun b hb => ens_pure (meta' hi hb)) _ h
  have liftS : ∀ {σ : Type} {i i' : Image F32} {s s' : σ} {x : StateT σ R (PixelBuffer (Col F32))},
      ImageOfNumbers i → EnsS x (All UnitCol) →
      (do return Image.new_from_buffer_with_meta i (← x) : StateT σ R (Image F32)) s = .ok (i', s') →
      ImageOfNumbers i' :=
    fun hi hx h => ensS_bind hx (fun b hb => ensS_pure (meta' hi hb)) _ _ h
  have bgOf : ∀ {i : Image F32}, ImageOfNumbers i → UnitCol (i.bg_color.getD Rgb.NONE) := by
    intro i hi
    cases h : i.bg_color with
    | none => exact none_unit
    | some c => exact hi.2 c h
  have size : ∀ {i : Image F32}, Made D libs i → i.buffer.width < 2 ^ 32 ∧ i.buffer.height < 2 ^ 32 := by
    intro i hi
    have v := (C65_wellFormed hh hi).1
    rcases v with ⟨a, b⟩ | ⟨a, b, c⟩
    · rw [a, b]; norm_num
    · constructor
      · have := Nat.le_mul_of_pos_right i.buffer.width b
        omega
      · have := Nat.le_mul_of_pos_left i.buffer.height a
        omega
  have cast : ∀ x : F32, Max.max (Scalar.asU32 x) 1 < 2 ^ 32 := by
    intro x
    have := LawfulCast.toInt_range 0 4294967295 x (by norm_num) (by norm_num)
    unfold Scalar.asU32
    omega
  induction h with
  | new w h img e => exact ⟨.new w h img e, ens_bind (all_new none_unit) (fun b hb => ens_pure (nobg hb)) _ e⟩
  | new_with_color w h c img hc e =>
    exact ⟨.new_with_color w h c img e, ens_bind (all_new hc) (fun b hb => ens_pure (nobg hb)) _ e⟩
  | new_from_raw w h d img hd e =>
    exact ⟨.new_from_raw w h d img e, ens_bind (all_raw hd) (fun b hb => ens_pure (nobg hb)) _ e⟩
  | new_from_buffer b hw hb => exact ⟨.new_from_buffer b hw, nobg hb⟩
  | new_from_raw_with_meta img w h d img' _ hd e ih =>
    exact ⟨.new_from_raw_with_meta img w h d img' ih.1 e, lift ih.2 (all_raw hd) e⟩
  | new_from_buffer_with_meta img b _ hw hb ih => exact ⟨.new_from_buffer_with_meta img b ih.1 hw, meta' ih.2 hb⟩
  | «open» fs path img e =>
    exact ⟨.open fs path img e, ensD_bind (number_decode_file hp hl fs path) (fun b hb => ensD_pure (nobg hb)) _ e⟩
  | read_from_buffer bytes img e =>
    exact ⟨.read_from_buffer bytes img e,
      ensD_bind (number_decode_buffer hp hl bytes) (fun b hb => ensD_pure (nobg hb)) _ e⟩
  | mod_colors img f _ hf ih =>
    exact ⟨.keeps _ _ ih.1 (.mod_colors img f), all_mod fun c hc => hf c (ih.2.1 c hc), ih.2.2⟩
  | map_colors img f s s' img' _ hf e ih =>
    exact ⟨.keeps _ _ ih.1 (.map_colors img f s s' img' e),
      liftS ih.2 (all_mapS (f := f) fun c hc s p e => hf c (ih.2.1 c hc) s p.1 p.2 e) e⟩
  | mod_colors_enumerated img f img' _ hf e ih =>
    exact ⟨.keeps _ _ ih.1 (.mod_colors_enumerated img f img' e),
      ens_bind (all_mod_enumerated fun x y c hc c' h => hf x y c c' (ih.2.1 c hc) h)
        (fun b hb => ens_pure ⟨hb, ih.2.2⟩) _ e⟩
  | map_colors_enumerated img f img' _ hf e ih =>
    exact ⟨.keeps _ _ ih.1 (.map_colors_enumerated img f img' e),
      lift ih.2 (all_enumerated fun x y c hc c' h => hf x y c c' (ih.2.1 c hc) h) e⟩
  | put_pixel img x y c img' _ hc e ih =>
    exact ⟨.keeps _ _ ih.1 (.put_pixel img x y c img' e),
      ens_bind (all_put ih.2.1 x y hc) (fun b hb => ens_pure ⟨hb, ih.2.2⟩) _ e⟩
  | crop img x y w h img' _ e ih => exact ⟨.crop img x y w h img' ih.1 e, lift ih.2 (all_crop ih.2.1 none_unit x y w h) e⟩
  | flip_horizontal img img' _ e ih =>
    exact ⟨.keeps _ _ ih.1 (.flip_horizontal img img' e), lift ih.2 (all_moves ih.2.1 none_unit).1 e⟩
  | flip_vertical img img' _ e ih =>
    exact ⟨.keeps _ _ ih.1 (.flip_vertical img img' e), lift ih.2 (all_moves ih.2.1 none_unit).2.1 e⟩
  | rotate90 img img' _ e ih => exact ⟨.rotate90 img img' ih.1 e, lift ih.2 (all_moves ih.2.1 none_unit).2.2.1 e⟩
  | rotate180 img img' _ e ih =>
    exact ⟨.keeps _ _ ih.1 (.rotate180 img img' e), lift ih.2 (all_moves ih.2.1 none_unit).2.2.2.1 e⟩
  | rotate270 img img' _ e ih => exact ⟨.rotate270 img img' ih.1 e, lift ih.2 (all_moves ih.2.1 none_unit).2.2.2.2 e⟩
  | rotate img a filter img' _ fa hf e ih =>
    exact ⟨.keeps _ _ ih.1 (.rotate img a filter img' e), lift ih.2 (number_rotate ht ih.2.1 fa (bgOf ih.2) filter hf) e⟩
  | edge_detection img img' _ e ih =>
    exact ⟨.keeps _ _ ih.1 (.edge_detection img _ img' e), lift ih.2 (number_sobel hq ih.2.1) e⟩
  | resize img w h filter img' _ hw hh' hf e ih =>
    exact ⟨.resize img w h filter img' ih.1 e,
      lift ih.2 (number_resize ih.2.1 (size ih.1).1 (size ih.1).2 hw hh' filter (.inl hf)) e⟩
  | enlarge img w h img' _ hw hh' hwh e ih =>
    exact ⟨.resize img w h .Auto img' ih.1 e,
      lift ih.2 (number_resize ih.2.1 (size ih.1).1 (size ih.1).2 hw hh' .Auto (.inr ⟨rfl, hwh⟩)) e⟩
  | resize_pct img p filter img' _ hf e ih =>
    exact ⟨.resize_pct img p filter img' ih.1 e,
      lift ih.2 (number_resize ih.2.1 (size ih.1).1 (size ih.1).2 (cast _) (cast _) filter (.inl hf)) e⟩
  | with_jpeg_quality img q preserve img' _ e ih =>
    exact ⟨.with_jpeg_quality img q preserve img' ih.1 e, lift ih.2 (number_jpeg hp hl ih.2.1 q preserve) e⟩
  | random_noise img g a s s' img' _ hg fa e ih =>
    exact ⟨.keeps _ _ ih.1 (.random_noise img g a s s' img' e), liftS ih.2 (number_noise hg ih.2.1 fa).1 e⟩
  | add_random_noise img g a s s' img' _ hg fa e ih =>
    exact ⟨.keeps _ _ ih.1 (.add_random_noise img g a s s' img' e), liftS ih.2 (number_noise hg ih.2.1 fa).2.1 e⟩
  | salt_n_pepper_noise img g a s s' img' _ hg fa e ih =>
    exact ⟨.keeps _ _ ih.1 (.salt_n_pepper_noise img g a s s' img' e), liftS ih.2 (number_noise hg ih.2.1 fa).2.2.1 e⟩
  | add_salt_n_pepper_noise img g a s s' img' _ hg fa e ih =>
    exact ⟨.keeps _ _ ih.1 (.add_salt_n_pepper_noise img g a s s' img' e),
      liftS ih.2 (number_noise hg ih.2.1 fa).2.2.2.1 e⟩
  | rgb_noise img g a s s' img' _ hg fa e ih =>
    exact ⟨.keeps _ _ ih.1 (.rgb_noise img g a s s' img' e), liftS ih.2 (number_noise hg ih.2.1 fa).2.2.2.2.1 e⟩
  | add_rgb_noise img g a s s' img' _ hg fa e ih =>
    exact ⟨.keeps _ _ ih.1 (.add_rgb_noise img g a s s' img' e), liftS ih.2 (number_noise hg ih.2.1 fa).2.2.2.2.2 e⟩
  | gaussian_noise img g a s s' img' _ hg fa e ih =>
    exact ⟨.keeps _ _ ih.1 (.gaussian_noise img g a s s' img' e), liftS ih.2 (number_gaussian hg ih.2.1 fa).1 e⟩
  | add_gaussian_noise img g a s s' img' _ hg fa e ih =>
    exact ⟨.keeps _ _ ih.1 (.add_gaussian_noise img g a s s' img' e), liftS ih.2 (number_gaussian hg ih.2.1 fa).2 e⟩
  | blend img other op i img' _ _ hb e ih ih' =>
    exact ⟨.blend img other op i img' ih.1 ih'.1 e, lift ih.2 (number_blend ih.2.1 ih'.2.1 op hb) e⟩
  | compose images d f s s' img' _ hd hf e ih =>
    refine ⟨.compose images d f s s' img' (fun i hi => (ih i hi).1) e, ?_⟩
    refine ensS_bind (all_composeS (P := UnitCol) (f := f) (fun b hb => ?_) hd fun x y l hl s p e => hf x y l hl s p.1 p.2 e)
      (fun b hb => ?_) _ _ e
    · obtain ⟨i, hi, rfl⟩ := List.mem_map.1 hb
      exact (ih i hi).2.1
    · refine ensS_bind (ensS_lift (ens_index (Q := ImageOfNumbers) (fun i hi => (ih i hi).2) _)) fun i hi =>
        ensS_pure (meta' hi hb)
  | interlace img o img' _ e ih => exact ⟨.keeps _ _ ih.1 (.interlace img o img' e), lift ih.2 (all_interlace ih.2.1 o) e⟩
  | despeckle img t n img' _ hn e ih =>
    exact ⟨.keeps _ _ ih.1 (.despeckle img t n img' e), lift ih.2 (number_despeckle ih.2.1 t hn) e⟩
  | stretch_contrast img t img' _ e ih =>
    exact ⟨.keeps _ _ ih.1 (.stretch_contrast img t img' e), lift ih.2 (number_stretch hp ih.2.1 t) e⟩
  | equalize img mode img' _ e ih =>
    exact ⟨.keeps _ _ ih.1 (.equalize img mode img' e),
      lift ih.2 (number_equalize hp ih.2.1 (C65_wellFormed hh ih.1) mode) e⟩
  | symmetric_nearest_neighbor img r c img' _ hc hr e ih =>
    exact ⟨.keeps _ _ ih.1 (.symmetric_nearest_neighbor img r c img' e), lift ih.2 (number_snn ih.2.1 hc hr) e⟩
  | unsharp img r a sigma img' _ fa hs e ih =>
    exact ⟨.keeps _ _ ih.1 (.unsharp img r a sigma img' e), lift ih.2 (number_unsharp_unit he hm ih.2.1 fa hs) e⟩
  | drawing img r mode img' _ e ih =>
    exact ⟨.keeps _ _ ih.1 (.drawing img r mode img' e), lift ih.2 (number_drawing hp he hm ih.2.1 r mode) e⟩

/-- Every image of a program that works with numbers holds finite numbers between 0 and 1 only. -/
theorem C123_tame (hp : PowGivesNumbers) (hq : SqrtGivesNumbers) (he : ExpInUnit) (hm : SqrtMild) (ht : SinCosInUnit)
    {libs : Libs F32} (hh : Honest libs) (hl : LibsGiveNumbers libs) {img : Image F32} (h : Tame libs img) : ImageOfNumbers img :=
  letI : Widen F32 F32 := ⟨id, id⟩
  (tame_keeps (D := F32) hp hq he hm ht hh hl h).2

end

/-! ## Where numbers are lost -/

theorem huge_blend : letI := Libm.trivial b32
    (blend_hsl_lighten (⟨lit 0.25, lit 0, lit 0, lit 1⟩ : Col F32) Rgb.WHITE (lit (3 * 10 ^ 38))).c1 = .nan := by
  decide +kernel

/-- The intensity of the blends of HSL has to be moderate: with a huge one, a finite number, white over a dark
red makes "not a number". -/
theorem C123_blend_not [Libm b32] [FloatBytes F32] (libs : Libs F32) :
    ∃ (img other img' : Image F32) (i : F32), Tame libs img ∧ Tame libs other ∧ i.fin = true ∧
      img.blend other .HslLighten i = .ok img' ∧ ¬ ImageOfNumbers img' := by
  let red : Col F32 := ⟨lit 0.25, lit 0, lit 0, lit 1⟩
  have hr : UnitCol red := ⟨by
    show (FP.ofRat b32 false 0.25).fin = true ∧ 0 ≤ (FP.ofRat b32 false 0.25).val ∧ (FP.ofRat b32 false 0.25).val ≤ 1
    decide +kernel, lit0_unit, lit0_unit, lit1_unit⟩
  have hw : UnitCol (Rgb.WHITE : Col F32) := ⟨lit1_unit, lit1_unit, lit1_unit, lit1_unit⟩
  refine ⟨⟨⟨1, 1, [red]⟩, none⟩, ⟨⟨1, 1, [Rgb.WHITE]⟩, none⟩,
    ⟨⟨1, 1, [blend_hsl_lighten red Rgb.WHITE (lit (3 * 10 ^ 38))]⟩, none⟩, lit (3 * 10 ^ 38),
    .new_with_color 1 1 red _ hr rfl, .new_with_color 1 1 _ _ hw rfl, ?_, ?_, fun h => ?_⟩
  · show (FP.ofRat b32 false (3 * 10 ^ 38)).fin = true
    decide +kernel
  · generalize (lit (3 * 10 ^ 38) : F32) = i
    generalize red = c
    have g : ∀ (c : Col F32), (⟨1, 1, [c]⟩ : PixelBuffer (Col F32)).get_pixel_optional 0 0 = .ok (some c) := fun _ => by
      with_unfolding_all rfl
    have z : asI32 0 = 0 := by decide
    have e : ∀ c d : Col F32, blend_image (⟨1, 1, [c]⟩ : PixelBuffer (Col F32)) ⟨1, 1, [d]⟩ .HslLighten i =
        .ok ⟨1, 1, [blend_hsl_lighten c d i]⟩ := by
      intro c d
      simp only [blend_image, blend_image_with_func, PixelBuffer.new_from_func, PixelBuffer.new_from_funcM]
      show (do
        let data ← [0].mapM fun k => do
          let c1 ← (⟨1, 1, [c]⟩ : PixelBuffer (Col F32)).get_pixel_optional (asI32 (k % 1)) (asI32 (k / 1))
          let c2 ← (⟨1, 1, [d]⟩ : PixelBuffer (Col F32)).get_pixel_optional (asI32 (k % 1)) (asI32 (k / 1))
          match c1, c2 with
          | some c1, some c2 => pure (blend_hsl_lighten c1 c2 i)
          | some c1, none => pure c1
          | none, some c2 => pure c2
          | none, none => pure Rgb.NONE
        pure (⟨1, 1, data⟩ : PixelBuffer (Col F32)) : R _) = _
      simp [z, g]
    rw [Image.blend, e]
    rfl
  · have u := (h.1 _ (.head _)).c1.1
    have n : (blend_hsl_lighten red Rgb.WHITE (lit (3 * 10 ^ 38))).c1 = .nan := huge_blend
    rw [n] at u
    cases u

/-! ## Examples -/

theorem poleOfPow_sqrt : letI := poleOfPow; SqrtGivesNumbers := fun _ hx _ => hx

theorem poleOfPow_bell : letI := poleOfPow; ExpInUnit ∧ SqrtMild := by
  refine ⟨fun x _ _ => ?_, fun x hx h => ⟨hx, h, le_max_right _ _, fun h => h⟩⟩
  show (FP.ofRat b32 false 1).fin = true ∧ 0 ≤ (FP.ofRat b32 false 1).val ∧ (FP.ofRat b32 false 1).val ≤ 1 ∧
    (x.val = 0 → (FP.ofRat b32 false 1).val = 1)
  rw [one32.2]
  exact ⟨one32.1, by norm_num, le_refl _, fun _ => rfl⟩

theorem demo_numbers [Libm b32] : LibsGiveNumbers (demo : Libs F32) := by
  refine ⟨fun bytes img h => ?_, fun bytes data h v hv => ?_⟩
  · rcases h with h | h <;> cases h <;> exact ⟨fun l h => (by cases h), fun l h => (by cases h)⟩
  · cases h
    simp only [List.mem_cons, List.not_mem_nil, or_false] at hv
    omega

/-- The hypotheses of `C123_tame`, and an image that went through several methods. -/
example [FloatBytes F32] : letI := poleOfPow
    (PowGivesNumbers ∧ SqrtGivesNumbers ∧ ExpInUnit ∧ SqrtMild ∧ SinCosInUnit) ∧
    Honest (demo : Libs F32) ∧ LibsGiveNumbers (demo : Libs F32) ∧
    ∃ img : Image F32, Tame demo img ∧ img.data = [Rgb.WHITE, Rgb.BLACK] := by
  let _ := poleOfPow
  have w : UnitCol (Rgb.WHITE : Col F32) := ⟨lit1_unit, lit1_unit, lit1_unit, lit1_unit⟩
  have b : UnitCol (Rgb.BLACK : Col F32) := ⟨lit0_unit, lit0_unit, lit0_unit, lit1_unit⟩
  exact ⟨⟨poleOfPow_numbers.1, poleOfPow_sqrt, poleOfPow_bell.1, poleOfPow_bell.2, poleOfPow_numbers.2⟩, demo_honest,
    demo_numbers,
    ⟨⟨1, 2, [Rgb.WHITE, Rgb.BLACK]⟩, none⟩,
    .rotate90 ⟨⟨2, 1, [Rgb.WHITE, Rgb.BLACK]⟩, none⟩ _ (.flip_horizontal ⟨⟨2, 1, [Rgb.BLACK, Rgb.WHITE]⟩, none⟩ _
      (.new_from_raw 2 1 [Rgb.BLACK, Rgb.WHITE] _ (by simpa using ⟨b, w⟩) rfl) rfl) rfl, rfl⟩

end D10
