import Verif.Props.NumbersOps

/-!
# Blurring, sharpening and drawing pictures of numbers

C124.
-/

namespace D10
open Scalar (lit)
open Spec

section
variable [Libm b32]

omit [Libm b32] in
theorem lift_blur {P : Col F32 → Prop} {i i' : Image F32} {x : R (PixelBuffer (Col F32))} (hx : Ens x (All P))
    (h : (do return Image.new_from_buffer_with_meta i (← x)) = Except.ok i') :
    All P i'.buffer ∧ i'.bg_color = i.bg_color :=
  ens_bind hx (fun b hb => ens_pure (a := Image.new_from_buffer_with_meta i b)
    (Q := fun j : Image F32 => All P j.buffer ∧ j.bg_color = i.bg_color) ⟨hb, rfl⟩) _ h

/-- A blur of a picture of numbers: no channel is lost, and none is infinite or negative. -/
theorem C124_blur (he : ExpInUnit) (hm : SqrtMild) {img img' : Image F32} (h : ImageOfNumbers img) {r : Nat}
    {sigma : Option F32} (hs : BlurWidthOK r sigma) (e : img.gaussian_blur r sigma = .ok img') :
    ∀ c ∈ img'.data, ∀ v ∈ [c.c0, c.c1, c.c2, c.alpha], v.fin = true ∧ 0 ≤ v.val := by
  have all := lift_blur (number_blur he hm h.1 hs) e
  intro c hc v hv
  obtain ⟨h0, h1, h2, h3⟩ := all.1 c hc
  simp only [List.mem_cons, List.not_mem_nil, or_false] at hv
  rcases hv with rfl | rfl | rfl | rfl
  exacts [⟨h0.1.fin, h0.2⟩, ⟨h1.1.fin, h1.2⟩, ⟨h2.1.fin, h2.2⟩, ⟨h3.1.fin, h3.2⟩]

/-- Sharpening makes pictures of numbers of pictures of numbers, for every finite amount. -/
theorem C124_unsharp (he : ExpInUnit) (hm : SqrtMild) {img img' : Image F32} (h : ImageOfNumbers img) {r : Nat} {a : F32}
    (ha : a.fin = true) {sigma : Option F32} (hs : BlurWidthOK r sigma) (e : img.unsharp r a sigma = .ok img') :
    ImageOfNumbers img' := by
  obtain ⟨hb, g⟩ := lift_blur (number_unsharp_unit he hm h.1 ha hs) e
  exact ⟨hb, g ▸ h.2⟩

/-- Sharpening makes pictures of numbers also of what a blur has made of a picture of numbers. -/
theorem C124_blur_unsharp (he : ExpInUnit) (hm : SqrtMild) {img mid img' : Image F32} (h : ImageOfNumbers img) {r r' : Nat}
    {a : F32} (ha : a.fin = true) {sigma sigma' : Option F32} (hs : BlurWidthOK r sigma) (hs' : BlurWidthOK r' sigma')
    (e : img.gaussian_blur r sigma = .ok mid) (e' : mid.unsharp r' a sigma' = .ok img') : ImageOfNumbers img' := by
  obtain ⟨hb, g⟩ := lift_blur (number_blur he hm h.1 hs) e
  obtain ⟨hc, g'⟩ := lift_blur (number_unsharp he hm (Q := True) (b := mid.buffer)
    (fun c hc => ⟨(hb c hc).1.1, fun _ => (hb c hc).2.1.1, (hb c hc).2.2.1.1, (hb c hc).2.2.2.1⟩) ha hs') e'
  exact ⟨fun c h => ⟨(hc c h).1, (hc c h).2.1.2 trivial, (hc c h).2.2.1, (hc c h).2.2.2⟩, g' ▸ g ▸ h.2⟩

/-- The drawing makes pictures of numbers of pictures of numbers, for every radius and in every mode. -/
theorem C124_drawing (hp : PowGivesNumbers) (he : ExpInUnit) (hm : SqrtMild) {img img' : Image F32} (h : ImageOfNumbers img)
    {r : Nat} {mode : DrawingMode} (e : img.drawing r mode = .ok img') : ImageOfNumbers img' := by
  obtain ⟨hb, g⟩ := lift_blur (number_drawing hp he hm h.1 r mode) e
  exact ⟨hb, g ▸ h.2⟩

end

/-! ## Where numbers are lost -/

/-- A radius of zero is outside: without a width no pixel of the blurred picture has a channel that is a
number, whatever the picture shows and whatever `exp` and `sqrt` return. -/
theorem C124_radius_zero_nan [Libm b32] {b : PixelBuffer (Col F32)} {w h px} (s : Shows b w h px) :
    ∃ b', gaussian_blur b 0 none = .ok b' ∧ Shows b' w h fun _ _ => ⟨.nan, .nan, .nan, .nan⟩ := by
  obtain ⟨b', e, s'⟩ := (C12_gaussian_blur s 0 none).1 (by norm_num)
  refine ⟨b', e, s'.congr fun x y _ _ => ?_⟩
  have z : (get_default_sigma 1 : F32) = .zero false := by
    show FP.div (FP.sub (FP.ofRat b32 false ((1 : Nat) : ℚ)) (FP.ofRat b32 false 1)) (FP.ofRat b32 false 4) = _
    decide +kernel
  have one : ∀ v : F32, FP.add (lit 0) (FP.mul .nan v) = .nan := by
    have : (lit 0 : F32) = .zero false := by
      show FP.ofRat b32 false 0 = .zero false; decide +kernel
    intro v
    rw [this]
    cases v <;> rfl
  have t : ∀ f : Nat → Nat → F32, total 1 1 f = FP.add (lit 0) (f 0 0) := fun _ => rfl
  have w := C12_sigma_zero_nan 1 (by norm_num) false 0 0
  show perChannel (fun ch => total 1 1 fun i j => FP.mul (gaussWeight 1 (get_default_sigma 1 : F32) i j) _) = _
  rw [z]
  simp only [t, w, one]
  rfl

/-! ## Examples -/

/-- The hypotheses of `C124_blur`, `C124_unsharp` and `C124_drawing`, with a picture of two colours. -/
example : letI := poleOfPow
    (PowGivesNumbers ∧ ExpInUnit ∧ SqrtMild) ∧ BlurWidthOK 3 none ∧ BlurWidthOK 0 (some (lit 2)) ∧
    ∃ img b1 b2 b3 : Image F32, ImageOfNumbers img ∧ img.data = [Rgb.WHITE, Rgb.BLACK] ∧
      img.gaussian_blur 3 none = .ok b1 ∧ img.unsharp 3 (lit 2) none = .ok b2 ∧ img.drawing 0 .ReducedColors = .ok b3 := by
  let _ := poleOfPow
  have wt : UnitCol (Rgb.WHITE : Col F32) := ⟨lit1_unit, lit1_unit, lit1_unit, lit1_unit⟩
  have bl : UnitCol (Rgb.BLACK : Col F32) := ⟨lit0_unit, lit0_unit, lit0_unit, lit1_unit⟩
  have hb : WellFormed (⟨2, 1, [Rgb.WHITE, Rgb.BLACK]⟩ : PixelBuffer (Col F32)) :=
    ⟨.inr ⟨by norm_num, by norm_num, by norm_num⟩, rfl⟩
  have : Inhabited (Col F32) := ⟨Rgb.NONE⟩
  have s := shows_of_wellFormed hb
  obtain ⟨b1, e1, -⟩ := (C12_gaussian_blur s 3 none).1 (by norm_num)
  obtain ⟨b2, -, -, e2, -⟩ := C46_unsharp s 3 (by norm_num) (lit 2) none
  obtain ⟨b3, e3, -⟩ := (C74_drawing s 0 .ReducedColors).1 (by norm_num)
  refine ⟨⟨poleOfPow_numbers.1, poleOfPow_bell.1, poleOfPow_bell.2⟩, by show 0 < 3; norm_num, ?_,
    ⟨⟨2, 1, [Rgb.WHITE, Rgb.BLACK]⟩, none⟩, ⟨b1, none⟩, ⟨b2, none⟩, ⟨b3, none⟩,
    ⟨by simpa [Image.data] using ⟨wt, bl⟩, fun c h => by cases h⟩, rfl, ?_, ?_, ?_⟩
  · show (FP.ofRat b32 false 2).fin = true ∧ 1 / 2 ^ 30 ≤ |(FP.ofRat b32 false 2).val| ∧ |(FP.ofRat b32 false 2).val| ≤ 2 ^ 30
    decide +kernel
  · unfold Image.gaussian_blur; rw [e1]; rfl
  · unfold Image.unsharp; rw [e2]; rfl
  · unfold Image.drawing; rw [e3]; rfl

end D10
