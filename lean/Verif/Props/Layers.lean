import Verif.SpecLayers
import Verif.Props.ColorOps
import Verif.Props.Geometry

/-!
# C138: layers of colours
-/

namespace D10
open Spec

variable [Junk]

/-- Blending stays in range. -/
theorem blend_unit (c o : Col ℝ) (hc : Spec.Unit c) (ho : Spec.Unit o) : Spec.Unit (Rgb.alpha_blend c o) := by
  obtain ⟨⟨a0, a1⟩, ⟨b0, b1⟩, ⟨c0, c1⟩, d0, d1⟩ := C35_between c o hc ho
  exact ⟨(le_min hc.r0 ho.r0).trans a0, a1.trans (max_le hc.r1 ho.r1), (le_min hc.g0 ho.g0).trans b0, b1.trans (max_le hc.g1 ho.g1),
    (le_min hc.b0 ho.b0).trans c0, c1.trans (max_le hc.b1 ho.b1), (hc.a0.trans (le_max_left _ _)).trans d0, d1⟩

/-- **A stack of layers**, each blended onto what lies below it: the base shines through as far as all the layers let it, every layer as
far as those above it do, and the alphas are added up to at most 1. -/
theorem C138_layers (layers : List (Col ℝ)) (base : Col ℝ) (hb : Spec.Unit base) (hl : ∀ o ∈ layers, Spec.Unit o) :
    layers.foldl Rgb.alpha_blend base =
      ⟨base.c0 * through layers + shine Col.c0 layers, base.c1 * through layers + shine Col.c1 layers,
        base.c2 * through layers + shine Col.c2 layers, min (base.alpha + (layers.map Col.alpha).sum) 1⟩ := by
  induction layers generalizing base with
  | nil =>
    simp [through, shine, hb.a1]
  | cons o rest ih =>
    have ho := hl o (List.mem_cons_self ..)
    have hr := fun x h => hl x (List.mem_cons_of_mem _ h)
    rw [List.foldl_cons, ih _ (blend_unit base o hb ho) hr, C35_alpha_blend base o hb ho]
    have s0 : 0 ≤ (rest.map Col.alpha).sum := List.sum_nonneg (by
      intro x hx
      obtain ⟨y, hy, rfl⟩ := List.mem_map.1 hx
      exact (hr y hy).a0)
    simp only [through, shine, List.map_cons, List.sum_cons]
    have al : min (min (base.alpha + o.alpha) 1 + (rest.map Col.alpha).sum) 1 =
        min (base.alpha + (o.alpha + (rest.map Col.alpha).sum)) 1 := by
      rcases le_total (base.alpha + o.alpha) 1 with h | h
      · rw [min_eq_left h, add_assoc]
      · rw [min_eq_right h, min_eq_right (by linarith), min_eq_right (by linarith)]
    rw [al]
    congr 1 <;> ring

omit [Junk] in
theorem through_range (layers : List (Col ℝ)) (hl : ∀ o ∈ layers, Spec.Unit o) : 0 ≤ through layers ∧ through layers ≤ 1 := by
  induction layers with
  | nil => exact ⟨zero_le_one, le_rfl⟩
  | cons o rest ih =>
    have ho := hl o (List.mem_cons_self ..)
    obtain ⟨i0, i1⟩ := ih fun x h => hl x (List.mem_cons_of_mem _ h)
    exact ⟨mul_nonneg (by linarith [ho.a1]) i0, mul_le_one₀ (by linarith [ho.a0]) i0 i1⟩

omit [Junk] in
theorem through_opaque (layers : List (Col ℝ)) (h : ∃ o ∈ layers, o.alpha = 1) : through layers = 0 := by
  induction layers with
  | nil => obtain ⟨o, ho, -⟩ := h; cases ho
  | cons o rest ih =>
    obtain ⟨x, hx, e⟩ := h
    unfold through
    rcases List.mem_cons.1 hx with rfl | hx
    · rw [e, sub_self, zero_mul]
    · rw [ih ⟨x, hx, e⟩, mul_zero]

/-- **What lies below.** Two bases differ under the same layers by exactly the part of their difference that shines
through; under an opaque layer they do not differ in colour at all. -/
theorem C138_below (layers : List (Col ℝ)) (b d : Col ℝ) (hb : Spec.Unit b) (hd : Spec.Unit d) (hl : ∀ o ∈ layers, Spec.Unit o) :
    ((layers.foldl Rgb.alpha_blend b).c0 - (layers.foldl Rgb.alpha_blend d).c0 = (b.c0 - d.c0) * through layers ∧
    (layers.foldl Rgb.alpha_blend b).c1 - (layers.foldl Rgb.alpha_blend d).c1 = (b.c1 - d.c1) * through layers ∧
    (layers.foldl Rgb.alpha_blend b).c2 - (layers.foldl Rgb.alpha_blend d).c2 = (b.c2 - d.c2) * through layers) ∧
    (0 ≤ through layers ∧ through layers ≤ 1) ∧
    ((∃ o ∈ layers, o.alpha = 1) → layers.foldl Rgb.alpha_blend b = layers.foldl Rgb.alpha_blend d) := by
  have e1 := C138_layers layers b hb hl
  have e2 := C138_layers layers d hd hl
  refine ⟨?_, through_range layers hl, fun h => ?_⟩
  · rw [e1, e2]
    refine ⟨?_, ?_, ?_⟩ <;> ring
  · have s1 : 1 ≤ (layers.map Col.alpha).sum := by
      obtain ⟨o, ho, e⟩ := h
      rw [← e]
      exact List.single_le_sum (by
        intro x hx
        obtain ⟨y, hy, rfl⟩ := List.mem_map.1 hx
        exact (hl y hy).a0) _ (List.mem_map.2 ⟨o, ho, rfl⟩)
    rw [e1, e2, through_opaque layers h, min_eq_right (by linarith [hb.a0]), min_eq_right (by linarith [hd.a0])]
    simp

/-- **The usual rule over opaque colours.** -/
theorem C138_opaque (c o : Col ℝ) (hc : Spec.Unit c) (ho : Spec.Unit o) (h : c.alpha = 1) : Rgb.alpha_blend c o = over o c := by
  rw [C35_alpha_blend c o hc ho]
  unfold over
  have e : o.alpha + c.alpha * (1 - o.alpha) = 1 := by rw [h]; ring
  simp only [e]
  rw [h, min_eq_right (by linarith [ho.a0])]
  congr 1 <;> ring

/-- **Over other colours** it is a different rule: the hidden colour of what lies below counts as if that was opaque. This is
by how much the channels differ from the usual rule, and when alpha does. -/
theorem C138_halo (c o : Col ℝ) (hc : Spec.Unit c) (ho : Spec.Unit o) (h : 0 < o.alpha) :
    ((over o c).c0 - (Rgb.alpha_blend c o).c0 = (o.c0 - c.c0) * o.alpha * (1 - o.alpha) * (1 - c.alpha) / (over o c).alpha ∧
    (over o c).c1 - (Rgb.alpha_blend c o).c1 = (o.c1 - c.c1) * o.alpha * (1 - o.alpha) * (1 - c.alpha) / (over o c).alpha ∧
    (over o c).c2 - (Rgb.alpha_blend c o).c2 = (o.c2 - c.c2) * o.alpha * (1 - o.alpha) * (1 - c.alpha) / (over o c).alpha) ∧
    (over o c).alpha ≤ (Rgb.alpha_blend c o).alpha ∧
    ((over o c).alpha = (Rgb.alpha_blend c o).alpha ↔ c.alpha = 0 ∨ c.alpha = 1 ∨ o.alpha = 1) := by
  rw [C35_alpha_blend c o hc ho]
  have h0 := hc.a0
  have h1 := hc.a1
  have k1 := ho.a1
  have p : 0 ≤ c.alpha * (1 - o.alpha) := mul_nonneg h0 (by linarith)
  have q : 0 ≤ c.alpha * o.alpha := mul_nonneg h0 h.le
  have r : 0 ≤ (1 - c.alpha) * (1 - o.alpha) := mul_nonneg (by linarith) (by linarith)
  have a0 : o.alpha + c.alpha * (1 - o.alpha) ≠ 0 := by linarith
  refine ⟨?_, ?_, ?_⟩
  · unfold over
    simp only
    refine ⟨?_, ?_, ?_⟩ <;> field_simp <;> ring
  · show o.alpha + c.alpha * (1 - o.alpha) ≤ min (c.alpha + o.alpha) 1
    exact le_min (by nlinarith) (by nlinarith)
  · show o.alpha + c.alpha * (1 - o.alpha) = min (c.alpha + o.alpha) 1 ↔ _
    constructor
    · intro e
      rcases le_total (c.alpha + o.alpha) 1 with h | h
      · rw [min_eq_left h] at e
        have : c.alpha * o.alpha = 0 := by linarith
        rcases mul_eq_zero.1 this with z | z
        · exact .inl z
        · linarith
      · rw [min_eq_right h] at e
        have : (1 - c.alpha) * (1 - o.alpha) = 0 := by linarith
        rcases mul_eq_zero.1 this with z | z
        · exact .inr (.inl (by linarith))
        · exact .inr (.inr (by linarith))
    · rintro (z | z | z)
      · rw [z, min_eq_left (by linarith)]; ring
      · rw [z, min_eq_right (by linarith)]; ring
      · rw [z, min_eq_right (by linarith)]; ring

omit [Junk] in
theorem over_unit (o c : Col ℝ) (hc : Spec.Unit c) (ho : Spec.Unit o) (h : 0 < (over o c).alpha) : Spec.Unit (over o c) := by
  have h0 := hc.a0
  have h1 := hc.a1
  have k0 := ho.a0
  have k1 := ho.a1
  have p : 0 ≤ c.alpha * (1 - o.alpha) := mul_nonneg h0 (by linarith)
  have r : 0 ≤ (1 - c.alpha) * (1 - o.alpha) := mul_nonneg (by linarith) (by linarith)
  have a0 : 0 < o.alpha + c.alpha * (1 - o.alpha) := h
  have go : ∀ {x y : ℝ}, 0 ≤ x → x ≤ 1 → 0 ≤ y → y ≤ 1 →
      0 ≤ (x * o.alpha + y * c.alpha * (1 - o.alpha)) / (o.alpha + c.alpha * (1 - o.alpha)) ∧
      (x * o.alpha + y * c.alpha * (1 - o.alpha)) / (o.alpha + c.alpha * (1 - o.alpha)) ≤ 1 := by
    intro x y x0 x1 y0 y1
    have u0 := mul_nonneg x0 k0
    have v0 := mul_nonneg y0 p
    constructor
    · exact div_nonneg (by nlinarith) a0.le
    · rw [div_le_one a0]
      have := mul_le_mul_of_nonneg_right x1 k0
      have := mul_le_mul_of_nonneg_right y1 p
      nlinarith
  exact ⟨(go ho.r0 ho.r1 hc.r0 hc.r1).1, (go ho.r0 ho.r1 hc.r0 hc.r1).2, (go ho.g0 ho.g1 hc.g0 hc.g1).1, (go ho.g0 ho.g1 hc.g0 hc.g1).2,
    (go ho.b0 ho.b1 hc.b0 hc.b1).1, (go ho.b0 ho.b1 hc.b0 hc.b1).2, h.le, by
      show o.alpha + c.alpha * (1 - o.alpha) ≤ 1
      nlinarith⟩

/-- **Merging layers.** Over an opaque base two layers may be merged first, but by the usual rule. -/
theorem C138_merge (c o p : Col ℝ) (hc : Spec.Unit c) (ho : Spec.Unit o) (hp : Spec.Unit p) (h : c.alpha = 1)
    (hv : 0 < (over p o).alpha) :
    Rgb.alpha_blend (Rgb.alpha_blend c o) p = Rgb.alpha_blend c (over p o) := by
  rw [C35_alpha_blend c _ hc (over_unit p o ho hp hv), C35_alpha_blend _ p (blend_unit c o hc ho) hp, C35_alpha_blend c o hc ho]
  have a0 : 0 < p.alpha + o.alpha * (1 - p.alpha) := hv
  unfold over
  simp only
  have k0 := ho.a0
  have l0 := hp.a0
  rw [h, min_eq_right (by linarith : (1 : ℝ) ≤ 1 + o.alpha), min_eq_right (by linarith), min_eq_right (by linarith)]
  have := a0.ne'
  congr 1 <;> rw [mul_div_cancel₀ _ this] <;> ring

/-- Merging them with `alpha_blend` itself gives another colour: half transparent white on half transparent black on an opaque
red. Merged first the two are opaque and the red has vanished. -/
theorem C138_merge_fails :
    Rgb.alpha_blend (Rgb.alpha_blend ⟨1, 0, 0, 1⟩ ⟨0, 0, 0, 1 / 2⟩) ⟨1, 1, 1, 1 / 2⟩ = (⟨3 / 4, 1 / 2, 1 / 2, 1⟩ : Col ℝ) ∧
    Rgb.alpha_blend ⟨1, 0, 0, 1⟩ (Rgb.alpha_blend ⟨0, 0, 0, 1 / 2⟩ ⟨1, 1, 1, 1 / 2⟩) = (⟨1 / 2, 1 / 2, 1 / 2, 1⟩ : Col ℝ) := by
  have u1 : Spec.Unit (⟨1, 0, 0, 1⟩ : Col ℝ) := by constructor <;> norm_num
  have u2 : Spec.Unit (⟨0, 0, 0, 1 / 2⟩ : Col ℝ) := by constructor <;> norm_num
  have u3 : Spec.Unit (⟨1, 1, 1, 1 / 2⟩ : Col ℝ) := by constructor <;> norm_num
  rw [C35_alpha_blend _ _ (blend_unit _ _ u1 u2) u3, C35_alpha_blend _ _ u1 (blend_unit _ _ u2 u3), C35_alpha_blend _ _ u1 u2,
    C35_alpha_blend _ _ u2 u3]
  constructor <;> norm_num

/-- **Nothing below.** A stack of layers on the transparent black that the library uses as a start is darkened by it: one
layer keeps its alpha, but its channels are multiplied by alpha. By the usual rule it would be unchanged. -/
theorem C138_on_nothing (o : Col ℝ) (ho : Spec.Unit o) :
    Rgb.alpha_blend Rgb.NONE o = ⟨o.alpha * o.c0, o.alpha * o.c1, o.alpha * o.c2, o.alpha⟩ ∧
    (0 < o.alpha → over o ⟨0, 0, 0, 0⟩ = o) := by
  have e : (Rgb.NONE : Col ℝ) = ⟨0, 0, 0, 0⟩ := by
    unfold Rgb.NONE
    ex_simp
  have u : Spec.Unit (⟨0, 0, 0, 0⟩ : Col ℝ) := by constructor <;> norm_num
  constructor
  · rw [e, C35_alpha_blend _ o u ho, zero_add, min_eq_left ho.a1]
    simp
  · intro h
    unfold over
    have := h.ne'
    simp [this]

/-- The colours that images have at a position, without those that do not reach it. -/
def Spec.layersAt (buffers : List (PixelBuffer (Col ℝ))) (x y : Nat) : List (Col ℝ) :=
  buffers.filterMap fun b => (b.get_pixel x y).toOption

/-- Transparent black, where an image does not reach, neither hides nor adds anything. -/
theorem layers_none (buffers : List (PixelBuffer (Col ℝ))) (x y : Nat) :
    through (buffers.map fun b => pixelOr Rgb.NONE b x y) = through (layersAt buffers x y) ∧
    (∀ ch : Col ℝ → ℝ, shine ch (buffers.map fun b => pixelOr Rgb.NONE b x y) = shine ch (layersAt buffers x y)) ∧
    ((buffers.map fun b => pixelOr Rgb.NONE b x y).map Col.alpha).sum = ((layersAt buffers x y).map Col.alpha).sum := by
  have e : (Rgb.NONE : Col ℝ) = ⟨0, 0, 0, 0⟩ := by
    unfold Rgb.NONE
    ex_simp
  induction buffers with
  | nil => exact ⟨rfl, fun _ => rfl, rfl⟩
  | cons b rest ih =>
    obtain ⟨i1, i2, i3⟩ := ih
    unfold layersAt at *
    rw [List.map_cons]
    cases h : b.get_pixel x y with
    | ok c =>
      have hp : pixelOr Rgb.NONE b x y = c := by unfold pixelOr; rw [h]
      rw [List.filterMap_cons_some (by rw [h]; rfl), hp]
      simp only [through, shine, List.map_cons, List.sum_cons, i1, i2, i3, implies_true, and_self]
    | error _ =>
      have hp : pixelOr Rgb.NONE b x y = ⟨0, 0, 0, 0⟩ := by unfold pixelOr; rw [h]; exact e
      rw [List.filterMap_cons_none (by rw [h]; rfl), hp]
      simp only [through, shine, List.map_cons, List.sum_cons, i1, i2, i3, sub_zero, one_mul, zero_mul, zero_add, implies_true, and_self]

/-- **Stacking images** of any sizes with `compose`, as in the library's own examples: the result is as large as the largest ones;
each colour is what the images reaching that position add, the last one on top. -/
theorem C138_images (buffers : List (PixelBuffer (Col ℝ))) (hb : ∀ b ∈ buffers, WellFormed b)
    (hu : ∀ b ∈ buffers, ∀ x y c, b.get_pixel x y = .ok c → Spec.Unit c) (W H : Nat)
    (hW : (∃ b ∈ buffers, b.width = W) ∧ ∀ b ∈ buffers, b.width ≤ W)
    (hH : (∃ b ∈ buffers, b.height = H) ∧ ∀ b ∈ buffers, b.height ≤ H) (hv : ValidSize W H) :
    ∃ b', compose_slice (m := R) buffers Rgb.NONE (fun _ _ colors => .ok (colors.foldl Rgb.alpha_blend Rgb.NONE)) = .ok b' ∧
      Shows b' W H fun x y => ⟨shine Col.c0 (layersAt buffers x y), shine Col.c1 (layersAt buffers x y),
        shine Col.c2 (layersAt buffers x y), min ((layersAt buffers x y).map Col.alpha).sum 1⟩ := by
  obtain ⟨b', e, s⟩ := (C38_compose Rgb.NONE buffers hb W H hW hH fun _ _ colors => colors.foldl Rgb.alpha_blend Rgb.NONE).1 hv
  refine ⟨b', e, ?_⟩
  have en : (Rgb.NONE : Col ℝ) = ⟨0, 0, 0, 0⟩ := by
    unfold Rgb.NONE
    ex_simp
  have un : Spec.Unit (Rgb.NONE : Col ℝ) := by rw [en]; constructor <;> norm_num
  have : ∀ x y, (buffers.map fun b => pixelOr Rgb.NONE b x y).foldl Rgb.alpha_blend Rgb.NONE =
      ⟨shine Col.c0 (layersAt buffers x y), shine Col.c1 (layersAt buffers x y),
        shine Col.c2 (layersAt buffers x y), min ((layersAt buffers x y).map Col.alpha).sum 1⟩ := by
    intro x y
    obtain ⟨l1, l2, l3⟩ := layers_none buffers x y
    rw [C138_layers _ _ un, l2, l2, l2, l3, en]
    · simp only [zero_mul, zero_add]
    · intro o ho
      obtain ⟨b, hm, rfl⟩ := List.mem_map.1 ho
      unfold pixelOr
      split
      · exact hu b hm x y _ ‹_›
      · exact un
  simpa only [this] using s

/-! ## The hypotheses can be met -/

/-- Two layers on a base. -/
example : ([⟨1, 1, 1, 1 / 2⟩, ⟨0, 1, 0, 1 / 4⟩] : List (Col ℝ)).foldl Rgb.alpha_blend ⟨0, 0, 1, 1 / 8⟩ =
    ⟨3 / 8, 5 / 8, 3 / 4, 7 / 8⟩ := by
  rw [C138_layers]
  · norm_num [through, shine]
  · constructor <;> norm_num
  · intro o ho
    rcases List.mem_cons.1 ho with rfl | ho
    · constructor <;> norm_num
    · rw [List.mem_singleton.1 ho]
      constructor <;> norm_num

/-- Half transparent white on transparent black: the usual rule gives white, `alpha_blend` gray. -/
example : over ⟨1, 1, 1, 1 / 2⟩ ⟨0, 0, 0, 0⟩ = ⟨1, 1, 1, 1 / 2⟩ ∧ 0 < (over ⟨1, 1, 1, 1 / 2⟩ ⟨0, 0, 0, 1 / 2⟩).alpha := by
  norm_num [over]

/-- A wide red and a high, half transparent green image: where they overlap, both count. -/
example : ∃ b', compose_slice (m := R) [⟨2, 1, rows 2 1 fun _ _ => ⟨1, 0, 0, 1⟩⟩, ⟨1, 2, rows 1 2 fun _ _ => ⟨0, 1, 0, 1 / 2⟩⟩]
      (Rgb.NONE : Col ℝ) (fun _ _ colors => .ok (colors.foldl Rgb.alpha_blend Rgb.NONE)) = .ok b' ∧
    b'.get_pixel 0 0 = .ok ⟨1 / 2, 1 / 2, 0, 1⟩ ∧ b'.get_pixel 1 0 = .ok ⟨1, 0, 0, 1⟩ ∧ b'.get_pixel 0 1 = .ok ⟨0, 1 / 2, 0, 1 / 2⟩ := by
  have v1 : ValidSize 2 1 := .inr (by norm_num)
  have v2 : ValidSize 1 2 := .inr (by norm_num)
  have s1 : Shows (⟨2, 1, rows 2 1 fun _ _ => ⟨1, 0, 0, 1⟩⟩ : PixelBuffer (Col ℝ)) 2 1 fun _ _ => ⟨1, 0, 0, 1⟩ := ⟨rfl, rfl, v1, rfl⟩
  have s2 : Shows (⟨1, 2, rows 1 2 fun _ _ => ⟨0, 1, 0, 1 / 2⟩⟩ : PixelBuffer (Col ℝ)) 1 2 fun _ _ => ⟨0, 1, 0, 1 / 2⟩ :=
    ⟨rfl, rfl, v2, rfl⟩
  obtain ⟨b', e, s⟩ := C138_images [⟨2, 1, rows 2 1 fun _ _ => ⟨1, 0, 0, 1⟩⟩, ⟨1, 2, rows 1 2 fun _ _ => ⟨0, 1, 0, 1 / 2⟩⟩]
    (by
      intro b hb
      rcases List.mem_cons.1 hb with rfl | hb
      · exact ⟨v1, rfl⟩
      · rw [List.mem_singleton.1 hb]; exact ⟨v2, rfl⟩)
    (by
      intro b hb x y c h
      rcases List.mem_cons.1 hb with rfl | hb
      · rw [C03_get_pixel s1] at h
        split at h
        · cases h; constructor <;> norm_num
        · cases h
      · rw [List.mem_singleton.1 hb, C03_get_pixel s2] at h
        split at h
        · cases h; constructor <;> norm_num
        · cases h) 2 2 (by simp) (by simp) (.inr (by norm_num))
  refine ⟨b', e, ?_, ?_, ?_⟩ <;> rw [C03_get_pixel s] <;> unfold layersAt <;> rw [List.filterMap_cons, List.filterMap_cons] <;>
    simp only [C03_get_pixel s1, C03_get_pixel s2] <;> norm_num [shine, through, Except.toOption]

end D10
