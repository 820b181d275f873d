import Verif.Spec
import Verif.Model.Color
import Verif.Props.ColorRange

/-!
# Changing the channels of a colour with a function (C114)
-/

namespace D10
open Spec

section
variable {F : Type} [Scalar F]

/-- C114: the function is called for the three colour channels in order and never for alpha, whatever state it
keeps and however it ends; its results become the channels of a new colour of the same type. -/
theorem C114_calls {S E : Type} (s : Space) (c : Col F) (f : F → S → Except E (F × S)) (st : S) :
    let run := try_map_color_channels (m := StateT S (Except E)) s c f st
    (∀ e, f c.c0 st = .error e → run = .error e) ∧
    (∀ a s1 e, f c.c0 st = .ok (a, s1) → f c.c1 s1 = .error e → run = .error e) ∧
    (∀ a s1 b s2 e, f c.c0 st = .ok (a, s1) → f c.c1 s1 = .ok (b, s2) → f c.c2 s2 = .error e → run = .error e) ∧
    (∀ a s1 b s2 d s3, f c.c0 st = .ok (a, s1) → f c.c1 s1 = .ok (b, s2) → f c.c2 s2 = .ok (d, s3) →
      run = .ok (new_with_alpha s a b d c.alpha, s3)) := by
  refine ⟨?_, ?_, ?_, ?_⟩ <;> intros <;>
    simp only [try_map_color_channels, bind, StateT.bind, Except.bind, pure, StateT.pure, Except.pure, *]

/-- C114: the two functions agree when the function cannot fail. -/
theorem C114_total {E : Type} (s : Space) (c : Col F) (f : F → F) :
    try_map_color_channels (m := Except E) s c (fun x => .ok (f x)) = .ok (map_color_channels s c f) := rfl

end

section
variable [Libm b32]

/-- C114: with a function that cannot fail, the four channels of the new colour: for RGB and sRGB they are
brought into [0, 1], alpha too, for the other types they are taken as they are. -/
theorem C114_channels (s : Space) (c : Col F32) (f : F32 → F32) :
    (map_color_channels s c f).data =
      if s = .rgb ∨ s = .srgb then [clampUnit (f c.c0), clampUnit (f c.c1), clampUnit (f c.c2), clampUnit c.alpha]
      else [f c.c0, f c.c1, f c.c2, c.alpha] := by
  simp only [← clamp01_eq_spec]
  cases s <;> rfl

/-- C114: mapping with the function that changes nothing gives the same colour, bit for bit, if it was made by
one of the constructors (for RGB and sRGB: if its channels are in [0, 1] or NaN). -/
theorem C114_identity (s : Space) (c : Col F32)
    (h : s = .rgb ∨ s = .srgb → ∀ x ∈ c.data, x = .nan ∨ x.fin = true ∧ 0 ≤ x.val ∧ x.val ≤ 1) :
    map_color_channels s c id = c := by
  have d := C114_channels s c id
  have inj : ∀ {a b : Col F32}, a.data = b.data → a = b := fun {a b} e => by
    cases a; cases b; simpa [Col.data] using e
  apply inj
  rw [d]
  split_ifs with hs
  · have k : ∀ x ∈ c.data, clampUnit x = x := fun x hx => by
      rcases h hs x hx with rfl | ⟨f, h0, h1⟩
      · exact (C23_range _).1 rfl
      · exact C23_identity x f h0 h1
    simp only [Col.data, List.mem_cons, List.not_mem_nil, or_false, forall_eq_or_imp, forall_eq] at k
    simp only [id, k.1, k.2.1, k.2.2.1, k.2.2.2, Col.data]
  · rfl

/-- C114: mapping twice is mapping once with both functions, for every type that does not limit its channels; for
RGB and sRGB the values are brought into [0, 1] in between. -/
theorem C114_compose (s : Space) (c : Col F32) (f g : F32 → F32) :
    map_color_channels s (map_color_channels s c f) g =
      map_color_channels s c (fun x => g (if s = .rgb ∨ s = .srgb then clampUnit (f x) else f x)) := by
  have idem : ∀ x : F32, clamp01 (clamp01 x) = clamp01 x := fun x => by
    rw [clamp01_eq_spec x, clamp01_eq_spec]
    by_cases hx : x = .nan
    · rw [(C23_range x).1 hx]; rfl
    · obtain ⟨h1, h2, h3⟩ := (C23_range x).2 hx
      exact C23_identity _ h1 h2 h3
  simp only [← clamp01_eq_spec]
  cases s <;> simp [map_color_channels, new_with_alpha, Rgb.new_with_alpha, idem]

/-- C114: the methods of RGB colours: `map_channels` brings the results into [0, 1] and leaves alpha alone (unlike
`map_color_channels`, which also brings alpha into [0, 1]); `map_channels_unclamped` takes the results as they
are. They agree for a function with values in [0, 1]. -/
theorem C114_rgb_methods (c : Col F32) (f : F32 → F32) :
    (Rgb.map_channels c f).data = [clampUnit (f c.c0), clampUnit (f c.c1), clampUnit (f c.c2), c.alpha] ∧
    (Rgb.map_channels_unclamped c f).data = [f c.c0, f c.c1, f c.c2, c.alpha] ∧
    ((∀ x, (f x).fin = true ∧ 0 ≤ (f x).val ∧ (f x).val ≤ 1) →
      Rgb.map_channels c f = Rgb.map_channels_unclamped c f) := by
  refine ⟨?_, rfl, fun h => ?_⟩
  · simp only [← clamp01_eq_spec]; rfl
  · have k : ∀ x, clamp01 (f x) = f x := fun x => by
      rw [clamp01_eq_spec]; exact C23_identity _ (h x).1 (h x).2.1 (h x).2.2
    simp only [Rgb.map_channels, Rgb.map_channels_unclamped, k]

/-- A stateful closure: the calls are numbered, and only the colour channels are passed. -/
example (c : Col F32) :
    try_map_color_channels (m := StateT (List F32) (Except Unit)) .hsl c (fun x l => .ok (x, l ++ [x])) [] =
      .ok (c, [c.c0, c.c1, c.c2]) := by
  rw [(C114_calls .hsl c _ []).2.2.2 _ _ _ _ _ _ rfl rfl rfl]; rfl

end

/-- The limits matter: going up by one and down again loses the colour of an RGB pixel but not of a YUV pixel. -/
example : letI := Libm.trivial b32
    let c : Col F32 := ⟨.ofRat b32 false 0.5, .ofRat b32 false 0.25, .ofRat b32 false 0, .ofRat b32 false 1⟩
    let up := fun x : F32 => FP.add x (.ofRat b32 false 1)
    let down := fun x : F32 => FP.sub x (.ofRat b32 false 1)
    map_color_channels .rgb (map_color_channels .rgb c up) down ≠ c ∧
    map_color_channels .yuv (map_color_channels .yuv c up) down = c := by
  decide +kernel

end D10
