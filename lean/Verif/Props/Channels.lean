import Mathlib.Data.Fintype.Basic
import Mathlib.Tactic.FinCases
import Verif.SpecChannels
import Verif.Model.Channels

/-!
# C84, C85: channels of colours and colour iterators
-/

namespace D10
open Spec

variable {F : Type} [Scalar F]

/-- Both ways to write the channels of a colour type. -/
local macro "channels" : tactic => `(tactic| (
  refine ⟨⟨?_, ?_, ?_⟩, ⟨?_, ?_, ?_⟩, ?_, fun _ _ _ _ => ?_⟩
  · intro i c v; fin_cases i <;> rfl
  · intro i j c v h; fin_cases i <;> fin_cases j <;> first | exact absurd rfl h | rfl
  · intro ⟨_, _, _, _⟩ ⟨_, _, _, _⟩ h
    have h0 := h 0; have h1 := h 1; have h2 := h 2; have h3 := h 3
    cases h0; cases h1; cases h2; cases h3; rfl
  · intro i c v; fin_cases i <;> rfl
  · intro i j c v h; fin_cases i <;> fin_cases j <;> first | exact absurd rfl h | rfl
  · intro ⟨_, _, _, _⟩ ⟨_, _, _, _⟩ h
    have h0 := h 0; have h1 := h 1; have h2 := h 2; have h3 := h 3
    cases h0; cases h1; cases h2; cases h3; rfl
  · intro c; rfl
  · exact ⟨rfl, rfl, rfl, rfl⟩))

/-- C84: the channels of `Rgb`. `with_…` and `set_…` write any value, unclamped; the constructor stores
the given values (clamped to 0..1); `data` lists the channels. -/
theorem C84_rgb :
    Channels (C := Col F) ![Rgb.red, Rgb.green, Rgb.blue, Rgb.alpha]
      ![Rgb.with_red, Rgb.with_green, Rgb.with_blue, Rgb.with_alpha] ∧
    Channels (C := Col F) ![Rgb.red, Rgb.green, Rgb.blue, Rgb.alpha]
      ![Rgb.set_red, Rgb.set_green, Rgb.set_blue, Rgb.set_alpha] ∧
    (∀ c : Col F, c.data = [Rgb.red c, Rgb.green c, Rgb.blue c, Rgb.alpha c]) ∧
    ∀ v0 v1 v2 v3 : F,
      Rgb.red (new_with_alpha .rgb v0 v1 v2 v3) = clamp01 v0 ∧
      Rgb.green (new_with_alpha .rgb v0 v1 v2 v3) = clamp01 v1 ∧
      Rgb.blue (new_with_alpha .rgb v0 v1 v2 v3) = clamp01 v2 ∧
      Rgb.alpha (new_with_alpha .rgb v0 v1 v2 v3) = clamp01 v3 := by
  channels

/-- C84: the channels of `Srgb`. `with_…` and `set_…` write any value, unclamped; the constructor stores
the given values (clamped to 0..1); `data` lists the channels. -/
theorem C84_srgb :
    Channels (C := Col F) ![Srgb.red, Srgb.green, Srgb.blue, Srgb.alpha]
      ![Srgb.with_red, Srgb.with_green, Srgb.with_blue, Srgb.with_alpha] ∧
    Channels (C := Col F) ![Srgb.red, Srgb.green, Srgb.blue, Srgb.alpha]
      ![Srgb.set_red, Srgb.set_green, Srgb.set_blue, Srgb.set_alpha] ∧
    (∀ c : Col F, c.data = [Srgb.red c, Srgb.green c, Srgb.blue c, Srgb.alpha c]) ∧
    ∀ v0 v1 v2 v3 : F,
      Srgb.red (new_with_alpha .srgb v0 v1 v2 v3) = clamp01 v0 ∧
      Srgb.green (new_with_alpha .srgb v0 v1 v2 v3) = clamp01 v1 ∧
      Srgb.blue (new_with_alpha .srgb v0 v1 v2 v3) = clamp01 v2 ∧
      Srgb.alpha (new_with_alpha .srgb v0 v1 v2 v3) = clamp01 v3 := by
  channels

/-- C84: the channels of `Hsl`. `with_…` and `set_…` write any value, unclamped; the constructor stores
the given values; `data` lists the channels. -/
theorem C84_hsl :
    Channels (C := Col F) ![Hsl.hue, Hsl.saturation, Hsl.lightness, Hsl.alpha]
      ![Hsl.with_hue, Hsl.with_saturation, Hsl.with_lightness, Hsl.with_alpha] ∧
    Channels (C := Col F) ![Hsl.hue, Hsl.saturation, Hsl.lightness, Hsl.alpha]
      ![Hsl.set_hue, Hsl.set_saturation, Hsl.set_lightness, Hsl.set_alpha] ∧
    (∀ c : Col F, c.data = [Hsl.hue c, Hsl.saturation c, Hsl.lightness c, Hsl.alpha c]) ∧
    ∀ v0 v1 v2 v3 : F,
      Hsl.hue (new_with_alpha .hsl v0 v1 v2 v3) = v0 ∧
      Hsl.saturation (new_with_alpha .hsl v0 v1 v2 v3) = v1 ∧
      Hsl.lightness (new_with_alpha .hsl v0 v1 v2 v3) = v2 ∧
      Hsl.alpha (new_with_alpha .hsl v0 v1 v2 v3) = v3 := by
  channels

/-- C84: the channels of `Hsv`. `with_…` and `set_…` write any value, unclamped; the constructor stores
the given values; `data` lists the channels. -/
theorem C84_hsv :
    Channels (C := Col F) ![Hsv.hue, Hsv.saturation, Hsv.value, Hsv.alpha]
      ![Hsv.with_hue, Hsv.with_saturation, Hsv.with_value, Hsv.with_alpha] ∧
    Channels (C := Col F) ![Hsv.hue, Hsv.saturation, Hsv.value, Hsv.alpha]
      ![Hsv.set_hue, Hsv.set_saturation, Hsv.set_value, Hsv.set_alpha] ∧
    (∀ c : Col F, c.data = [Hsv.hue c, Hsv.saturation c, Hsv.value c, Hsv.alpha c]) ∧
    ∀ v0 v1 v2 v3 : F,
      Hsv.hue (new_with_alpha .hsv v0 v1 v2 v3) = v0 ∧
      Hsv.saturation (new_with_alpha .hsv v0 v1 v2 v3) = v1 ∧
      Hsv.value (new_with_alpha .hsv v0 v1 v2 v3) = v2 ∧
      Hsv.alpha (new_with_alpha .hsv v0 v1 v2 v3) = v3 := by
  channels

/-- C84: the channels of `Yuv`. `with_…` and `set_…` write any value, unclamped; the constructor stores
the given values; `data` lists the channels. -/
theorem C84_yuv :
    Channels (C := Col F) ![Yuv.y, Yuv.u, Yuv.v, Yuv.alpha]
      ![Yuv.with_y, Yuv.with_u, Yuv.with_v, Yuv.with_alpha] ∧
    Channels (C := Col F) ![Yuv.y, Yuv.u, Yuv.v, Yuv.alpha]
      ![Yuv.set_y, Yuv.set_u, Yuv.set_v, Yuv.set_alpha] ∧
    (∀ c : Col F, c.data = [Yuv.y c, Yuv.u c, Yuv.v c, Yuv.alpha c]) ∧
    ∀ v0 v1 v2 v3 : F,
      Yuv.y (new_with_alpha .yuv v0 v1 v2 v3) = v0 ∧
      Yuv.u (new_with_alpha .yuv v0 v1 v2 v3) = v1 ∧
      Yuv.v (new_with_alpha .yuv v0 v1 v2 v3) = v2 ∧
      Yuv.alpha (new_with_alpha .yuv v0 v1 v2 v3) = v3 := by
  channels

/-- C84: the channels of `Xyz`. `with_…` and `set_…` write any value, unclamped; the constructor stores
the given values; `data` lists the channels. -/
theorem C84_xyz :
    Channels (C := Col F) ![Xyz.x, Xyz.y, Xyz.z, Xyz.alpha]
      ![Xyz.with_x, Xyz.with_y, Xyz.with_z, Xyz.with_alpha] ∧
    Channels (C := Col F) ![Xyz.x, Xyz.y, Xyz.z, Xyz.alpha]
      ![Xyz.set_x, Xyz.set_y, Xyz.set_z, Xyz.set_alpha] ∧
    (∀ c : Col F, c.data = [Xyz.x c, Xyz.y c, Xyz.z c, Xyz.alpha c]) ∧
    ∀ v0 v1 v2 v3 : F,
      Xyz.x (new_with_alpha .xyz v0 v1 v2 v3) = v0 ∧
      Xyz.y (new_with_alpha .xyz v0 v1 v2 v3) = v1 ∧
      Xyz.z (new_with_alpha .xyz v0 v1 v2 v3) = v2 ∧
      Xyz.alpha (new_with_alpha .xyz v0 v1 v2 v3) = v3 := by
  channels

/-- C84: the channels of `Lab`. `with_…` and `set_…` write any value, unclamped; the constructor stores
the given values; `data` lists the channels. -/
theorem C84_lab (i : Illuminant) (o : Observer) :
    Channels (C := Col F) ![Lab.l, Lab.a, Lab.b, Lab.alpha]
      ![Lab.with_l, Lab.with_a, Lab.with_b, Lab.with_alpha] ∧
    Channels (C := Col F) ![Lab.l, Lab.a, Lab.b, Lab.alpha]
      ![Lab.set_l, Lab.set_a, Lab.set_b, Lab.set_alpha] ∧
    (∀ c : Col F, c.data = [Lab.l c, Lab.a c, Lab.b c, Lab.alpha c]) ∧
    ∀ v0 v1 v2 v3 : F,
      Lab.l (new_with_alpha (.lab i o) v0 v1 v2 v3) = v0 ∧
      Lab.a (new_with_alpha (.lab i o) v0 v1 v2 v3) = v1 ∧
      Lab.b (new_with_alpha (.lab i o) v0 v1 v2 v3) = v2 ∧
      Lab.alpha (new_with_alpha (.lab i o) v0 v1 v2 v3) = v3 := by
  channels

/-- C84: the channels of `Lch`. `with_…` and `set_…` write any value, unclamped; the constructor stores
the given values; `data` lists the channels. -/
theorem C84_lch (i : Illuminant) (o : Observer) :
    Channels (C := Col F) ![Lch.l, Lch.c, Lch.h, Lch.alpha]
      ![Lch.with_l, Lch.with_c, Lch.with_h, Lch.with_alpha] ∧
    Channels (C := Col F) ![Lch.l, Lch.c, Lch.h, Lch.alpha]
      ![Lch.set_l, Lch.set_c, Lch.set_h, Lch.set_alpha] ∧
    (∀ c : Col F, c.data = [Lch.l c, Lch.c c, Lch.h c, Lch.alpha c]) ∧
    ∀ v0 v1 v2 v3 : F,
      Lch.l (new_with_alpha (.lch i o) v0 v1 v2 v3) = v0 ∧
      Lch.c (new_with_alpha (.lch i o) v0 v1 v2 v3) = v1 ∧
      Lch.h (new_with_alpha (.lch i o) v0 v1 v2 v3) = v2 ∧
      Lch.alpha (new_with_alpha (.lch i o) v0 v1 v2 v3) = v3 := by
  channels

/-! ## C85 -/

omit [Scalar F] in
/-- Adapters that call `next` once per item. -/
theorem maps_of {σ α β : Type} (it : Iter σ α) (f : α → β) (it' : Iter σ β)
    (h1 : ∀ st, it'.next st = ((it.next st).1.map f, (it.next st).2))
    (h2 : ∀ st, it'.size_hint st = it.size_hint st) : Maps it it' f := by
  have ha : ∀ start k, after it' start k = after it start k := by
    intro start k
    induction k with
    | zero => rfl
    | succ k ih => simp only [after, ih, h1]
  exact ⟨fun start k => by simp only [item, ha, h1], fun start k => by rw [ha, h2]⟩

/-- C85: the adapters of iterators over colours convert every item, in order, and nothing else. -/
theorem C85_values {σ : Type} (s : Space) (it : Iter σ (Col F)) :
    Maps it (ColorIter.into_rgb s it) (to_rgb s) ∧
    Maps it (ColorIter.into_srgb s it) (to_srgb s) ∧
    Maps it (ColorIter.into_hsl s it) (to_hsl s) ∧
    Maps it (ColorIter.into_hsv s it) (to_hsv s) ∧
    Maps it (ColorIter.into_yuv s it) (to_yuv s) ∧
    Maps it (ColorIter.into_xyz s it) (to_xyz s) ∧
    (∀ i o, Maps it (ColorIter.into_lab i o s it) (to_lab i o s)) ∧
    ∀ i o, Maps it (ColorIter.into_lch i o s it) (to_lch i o s) := by
  refine ⟨?_, ?_, ?_, ?_, ?_, ?_, fun i o => ?_, fun i o => ?_⟩ <;>
    exact maps_of _ _ _ (fun _ => rfl) fun _ => rfl

/-- C85: so do those of iterators over references. -/
theorem C85_references {σ : Type} (s : Space) (it : Iter σ (Col F)) :
    Maps it (ColorIterRef.into_rgb s it) (to_rgb s) ∧
    Maps it (ColorIterRef.into_srgb s it) (to_srgb s) ∧
    Maps it (ColorIterRef.into_hsl s it) (to_hsl s) ∧
    Maps it (ColorIterRef.into_hsv s it) (to_hsv s) ∧
    Maps it (ColorIterRef.into_yuv s it) (to_yuv s) ∧
    Maps it (ColorIterRef.into_xyz s it) (to_xyz s) ∧
    (∀ i o, Maps it (ColorIterRef.into_lab i o s it) (to_lab i o s)) ∧
    ∀ i o, Maps it (ColorIterRef.into_lch i o s it) (to_lch i o s) := by
  refine ⟨?_, ?_, ?_, ?_, ?_, ?_, fun i o => ?_, fun i o => ?_⟩ <;>
    exact maps_of _ _ _ (fun _ => rfl) fun _ => rfl

omit [Scalar F] in
/-- The items of a list. -/
theorem ofList_item {α : Type} (l : List α) (k : Nat) : item ofList l k = l[k]? := by
  have ha : ∀ k (l : List α), after ofList l k = l.drop k := by
    intro k
    induction k with
    | zero => intro l; rfl
    | succ k ih =>
      intro l
      rw [after, ih]
      rcases hd : l.drop k with _ | ⟨a, t⟩
      · simp only [ofList]; rw [List.drop_eq_nil_iff] at hd; rw [List.drop_eq_nil_of_le]; omega
      · simp only [ofList]; rw [show k + 1 = k + 1 from rfl, ← List.drop_drop, hd]; rfl
  rw [item, ha]
  rcases hd : l.drop k with _ | ⟨a, t⟩
  · simp only [ofList]
    rw [List.drop_eq_nil_iff] at hd
    rw [List.getElem?_eq_none hd]
  · simp only [ofList]
    have := congrArg List.head? hd
    rw [List.head?_drop] at this
    rw [this]; rfl

omit [Scalar F] in
/-- C85: so an adapter on the pixels of a buffer, or on any list, lists the converted colours. -/
theorem C85_list {α β : Type} (f : α → β) (it' : Iter (List α) β) (h : Maps ofList it' f) (l : List α) (k : Nat) :
    item it' l k = (l.map f)[k]? := by
  rw [h.items, ofList_item, List.getElem?_map]

example (a b : Col F) := C85_list _ _ (C85_values .hsl ofList).1 [a, b] 1

/-- C84 is about unclamped writes: a colour can be given any red value. -/
example (c : Col F) (v : F) : Rgb.red (Rgb.with_red c v) = v ∧ Rgb.green (Rgb.with_red c v) = Rgb.green c :=
  ⟨C84_rgb.1.written 0 c v, C84_rgb.1.others 0 1 c v (by decide)⟩

end D10
