import Verif.SpecBlendLaws
import Verif.Props.Blend

/-!
# C141: laws of blending
-/

namespace D10
open Spec
open Scalar (lit)

variable [Junk]

/-- The result for opaque colours is opaque and in range. -/
theorem even_opaque {op : BlendOp} (hop : op ∈ evenModes) {c d : Col ℝ} (hc : Opaque c) (hd : Opaque d) : Opaque (modeFunction op c d 1) := by
  obtain ⟨e1, -, e3, e4⟩ := C37_intensity_one c d hc.1 hd.1 hd.2
  obtain ⟨⟨r0, r1, g0, g1, b0, b1, -, -⟩, -⟩ := hc
  obtain ⟨⟨r0', r1', g0', g1', b0', b1', -, -⟩, -⟩ := hd
  simp only [evenModes, List.mem_cons, List.not_mem_nil, or_false] at hop
  rcases hop with rfl | rfl | rfl
  · rw [e1]
    exact ⟨⟨le_min zero_le_one (by linarith), min_le_left _ _, le_min zero_le_one (by linarith), min_le_left _ _,
      le_min zero_le_one (by linarith), min_le_left _ _, zero_le_one, le_rfl⟩, rfl⟩
  · rw [e3]
    exact ⟨⟨le_min r0 r0', (min_le_left _ _).trans r1, le_min g0 g0', (min_le_left _ _).trans g1,
      le_min b0 b0', (min_le_left _ _).trans b1, zero_le_one, le_rfl⟩, rfl⟩
  · rw [e4]
    exact ⟨⟨r0.trans (le_max_left _ _), max_le r1 r1', g0.trans (le_max_left _ _), max_le g1 g1',
      b0.trans (le_max_left _ _), max_le b1 b1', zero_le_one, le_rfl⟩, rfl⟩

theorem even_swap {op : BlendOp} (hop : op ∈ evenModes) {c d : Col ℝ} (hc : Opaque c) (hd : Opaque d) :
    modeFunction op c d 1 = modeFunction op d c 1 := by
  obtain ⟨e1, -, e3, e4⟩ := C37_intensity_one c d hc.1 hd.1 hd.2
  obtain ⟨f1, -, f3, f4⟩ := C37_intensity_one d c hd.1 hc.1 hc.2
  simp only [evenModes, List.mem_cons, List.not_mem_nil, or_false] at hop
  rcases hop with rfl | rfl | rfl
  · rw [e1, f1, add_comm c.c0, add_comm c.c1, add_comm c.c2]
  · rw [e3, f3, min_comm c.c0, min_comm c.c1, min_comm c.c2]
  · rw [e4, f4, max_comm c.c0, max_comm c.c1, max_comm c.c2]

omit [Junk] in
theorem add_limited {a b c : ℝ} (ha : 0 ≤ a) (hc : 0 ≤ c) : min 1 (min 1 (a + b) + c) = min 1 (a + min 1 (b + c)) := by
  rcases le_total 1 (a + b) with h | h <;> rcases le_total 1 (b + c) with k | k
  · rw [min_eq_left h, min_eq_left k, min_eq_left (by linarith), min_eq_left (by linarith)]
  · rw [min_eq_left h, min_eq_right k, min_eq_left (by linarith), min_eq_left (by linarith)]
  · rw [min_eq_right h, min_eq_left k, min_eq_left (by linarith), min_eq_left (by linarith)]
  · rw [min_eq_right h, min_eq_right k, add_assoc]

theorem even_order {op : BlendOp} (hop : op ∈ evenModes) {c d e : Col ℝ} (hc : Opaque c) (hd : Opaque d) (he : Opaque e) :
    modeFunction op (modeFunction op c d 1) e 1 = modeFunction op c (modeFunction op d e 1) 1 := by
  have u := even_opaque hop hc hd
  have v := even_opaque hop hd he
  obtain ⟨i1, -, i3, i4⟩ := C37_intensity_one c d hc.1 hd.1 hd.2
  obtain ⟨j1, -, j3, j4⟩ := C37_intensity_one d e hd.1 he.1 he.2
  obtain ⟨k1, -, k3, k4⟩ := C37_intensity_one _ e u.1 he.1 he.2
  obtain ⟨l1, -, l3, l4⟩ := C37_intensity_one c _ hc.1 v.1 v.2
  simp only [evenModes, List.mem_cons, List.not_mem_nil, or_false] at hop
  rcases hop with rfl | rfl | rfl
  · rw [k1, l1, i1, j1]
    simp only
    rw [add_limited hc.1.r0 he.1.r0, add_limited hc.1.g0 he.1.g0, add_limited hc.1.b0 he.1.b0]
  · rw [k3, l3, i3, j3]
    simp only [min_assoc]
  · rw [k4, l4, i4, j4]
    simp only [max_assoc]

/-- **Swapping.** Adding, or keeping the darker or the lighter channels, at full intensity: it does not matter which of two
opaque pictures is the base, whatever their sizes. -/
theorem C141_swap {op : BlendOp} (hop : op ∈ evenModes) {a b : PixelBuffer (Col ℝ)} {w h p w' h' p'} (sa : Shows a w h p)
    (sb : Shows b w' h' p') (oa : ∀ x y, x < w → y < h → Opaque (p x y)) (ob : ∀ x y, x < w' → y < h' → Opaque (p' x y)) :
    blend_image a b op 1 = blend_image b a op 1 := by
  obtain ⟨y1, n1⟩ := C36_blend_image sa sb op 1
  obtain ⟨y2, n2⟩ := C36_blend_image sb sa op 1
  rw [max_comm w' w, max_comm h' h] at y2 n2
  by_cases hv : ValidSize (max w w') (max h h')
  · obtain ⟨r, e, s⟩ := y1 hv
    obtain ⟨r', e', s'⟩ := y2 hv
    rw [e, e']
    refine congrArg _ (s.eq (s'.congr ?_))
    intro x y _ _
    by_cases i : x < w ∧ y < h
    · by_cases j : x < w' ∧ y < h'
      · simp only [i, j, and_self, if_true]
        exact even_swap hop (ob x y j.1 j.2) (oa x y i.1 i.2)
      · simp only [i, j, and_self, if_true, if_false]
    · by_cases j : x < w' ∧ y < h'
      · simp only [i, j, and_self, if_true, if_false]
      · simp only [i, j, if_false]
  · rw [n1 hv, n2 hv]

/-- Pictures of the same size. -/
theorem blend_same {a b : PixelBuffer (Col ℝ)} {w h p p'} (sa : Shows a w h p) (sb : Shows b w h p') (op : BlendOp) (i : ℝ) :
    ∃ r, blend_image a b op i = .ok r ∧ Shows r w h fun x y => modeFunction op (p x y) (p' x y) i := by
  obtain ⟨y, -⟩ := C36_blend_image sa sb op i
  rw [max_self, max_self] at y
  obtain ⟨r, e, s⟩ := y sa.size
  refine ⟨r, e, s.congr fun x y hx hy => ?_⟩
  rw [if_pos ⟨hx, hy⟩, if_pos ⟨hx, hy⟩]

/-- **The order** does not matter either, for opaque pictures of the same size. -/
theorem C141_order {op : BlendOp} (hop : op ∈ evenModes) {a b c : PixelBuffer (Col ℝ)} {w h p q r} (sa : Shows a w h p)
    (sb : Shows b w h q) (sc : Shows c w h r) (oa : ∀ x y, x < w → y < h → Opaque (p x y)) (ob : ∀ x y, x < w → y < h → Opaque (q x y))
    (oc : ∀ x y, x < w → y < h → Opaque (r x y)) :
    ∃ ab bc abc, blend_image a b op 1 = .ok ab ∧ blend_image b c op 1 = .ok bc ∧
      blend_image ab c op 1 = .ok abc ∧ blend_image a bc op 1 = .ok abc := by
  obtain ⟨ab, e1, s1⟩ := blend_same sa sb op 1
  obtain ⟨bc, e2, s2⟩ := blend_same sb sc op 1
  obtain ⟨x, e3, s3⟩ := blend_same s1 sc op 1
  obtain ⟨y, e4, s4⟩ := blend_same sa s2 op 1
  refine ⟨ab, bc, x, e1, e2, e3, ?_⟩
  rw [e4]
  exact congrArg _ (s4.eq (s3.congr fun x y hx hy => even_order hop (oa x y hx hy) (ob x y hx hy) (oc x y hx hy)))

/-- **But it does for different sizes**: where neither of the first two pictures reaches, their blend is filled with transparent
black, and that black counts as a colour for the third. Three white pictures, 2 x 1, 1 x 2 and 2 x 2, keeping the darker
channels: one order gives black in the corner, the other white. -/
theorem C141_corner {a b c : PixelBuffer (Col ℝ)} (sa : Shows a 2 1 fun _ _ => ⟨1, 1, 1, 1⟩) (sb : Shows b 1 2 fun _ _ => ⟨1, 1, 1, 1⟩)
    (sc : Shows c 2 2 fun _ _ => ⟨1, 1, 1, 1⟩) :
    ∃ ab bc x y, blend_image a b .Darken 1 = .ok ab ∧ blend_image b c .Darken 1 = .ok bc ∧
      blend_image ab c .Darken 1 = .ok x ∧ blend_image a bc .Darken 1 = .ok y ∧
      x.get_pixel 1 1 = .ok ⟨0, 0, 0, 1⟩ ∧ y.get_pixel 1 1 = .ok ⟨1, 1, 1, 1⟩ := by
  have v : ValidSize 2 2 := .inr (by norm_num)
  have u : Spec.Unit (⟨1, 1, 1, 1⟩ : Col ℝ) := by constructor <;> norm_num
  have z : Spec.Unit (⟨0, 0, 0, 0⟩ : Col ℝ) := by constructor <;> norm_num
  obtain ⟨ab, e1, s1⟩ := (C36_blend_image sa sb .Darken 1).1 (by norm_num [v])
  obtain ⟨bc, e2, s2⟩ := (C36_blend_image sb sc .Darken 1).1 (by norm_num [v])
  norm_num at s1 s2
  obtain ⟨x, e3, s3⟩ := (C36_blend_image s1 sc .Darken 1).1 (by norm_num [v])
  obtain ⟨y, e4, s4⟩ := (C36_blend_image sa s2 .Darken 1).1 (by norm_num [v])
  norm_num at s3 s4
  refine ⟨ab, bc, x, y, e1, e2, e3, e4, ?_, ?_⟩
  · rw [C03_get_pixel s3]
    have := (C37_intensity_one _ _ z u rfl).2.2.1
    norm_num at this
    have l0 : (lit 0 : ℝ) = 0 := by ex_simp
    norm_num [this, l0]
  · rw [C03_get_pixel s4]
    norm_num

/-- **A picture with itself**: the normal mode and keeping the darker or the lighter channels leave it as it is, at every intensity;
subtracting it makes it black. -/
theorem C141_self {a : PixelBuffer (Col ℝ)} {w h p} (sa : Shows a w h p) (oa : ∀ x y, x < w → y < h → Opaque (p x y)) :
    (∀ op ∈ [BlendOp.Normal, .Darken, .Lighten], ∀ i, 0 ≤ i → i ≤ 1 → blend_image a a op i = .ok a) ∧
    ∃ r, blend_image a a .Subtract 1 = .ok r ∧ Shows r w h fun _ _ => ⟨0, 0, 0, 1⟩ := by
  have m0 : ∀ v t : ℝ, mix v v t = v := fun v t => by unfold mix; ring
  constructor
  · intro op hop i i0 i1
    obtain ⟨r, e, s⟩ := blend_same sa sa op i
    rw [e]
    refine congrArg _ (s.eq (sa.congr fun x y hx hy => ?_))
    obtain ⟨u, o⟩ := oa x y hx hy
    have fin : (⟨(p x y).c0, (p x y).c1, (p x y).c2, 1⟩ : Col ℝ) = p x y := by rw [← o]
    simp only [List.mem_cons, List.not_mem_nil, or_false] at hop
    rcases hop with rfl | rfl | rfl
    · rw [C37_normal _ _ u u i i0 i1, m0, m0, m0, o, min_eq_left (by linarith), fin]
    · rw [C37_channel_modes .Darken _ rfl _ _ u i]
      simp only [min_self, m0]
      rw [unit_clamp u.r0 u.r1, unit_clamp u.g0 u.g1, unit_clamp u.b0 u.b1]
    · rw [C37_channel_modes .Lighten _ rfl _ _ u i]
      simp only [max_self, m0]
      rw [unit_clamp u.r0 u.r1, unit_clamp u.g0 u.g1, unit_clamp u.b0 u.b1]
  · obtain ⟨r, e, s⟩ := blend_same sa sa .Subtract 1
    refine ⟨r, e, s.congr fun x y hx hy => ?_⟩
    obtain ⟨u, o⟩ := oa x y hx hy
    rw [(C37_intensity_one _ _ u u o).2.1]
    simp

/-- **Neutral colours**: adding or subtracting black, keeping the channels lighter than black or darker than white, at every intensity. -/
theorem C141_neutral {op : BlendOp} {n : Col ℝ} (hn : Neutral op n) {a b : PixelBuffer (Col ℝ)} {w h p} (sa : Shows a w h p)
    (sb : Shows b w h fun _ _ => n) (oa : ∀ x y, x < w → y < h → Opaque (p x y)) (i : ℝ) : blend_image a b op i = .ok a := by
  have m0 : ∀ v t : ℝ, mix v v t = v := fun v t => by unfold mix; ring
  obtain ⟨r, e, s⟩ := blend_same sa sb op i
  rw [e]
  refine congrArg _ (s.eq (sa.congr fun x y hx hy => ?_))
  obtain ⟨u, o⟩ := oa x y hx hy
  have fin : (⟨(p x y).c0, (p x y).c1, (p x y).c2, 1⟩ : Col ℝ) = p x y := by rw [← o]
  have z : Spec.Unit (⟨0, 0, 0, 1⟩ : Col ℝ) := by constructor <;> norm_num
  have z' : Spec.Unit (⟨1, 1, 1, 1⟩ : Col ℝ) := by constructor <;> norm_num
  cases hn with
  | addition =>
    rw [C37_channel_modes .Addition _ rfl _ _ z i]
    simp only [add_zero, m0]
    rw [unit_clamp u.r0 u.r1, unit_clamp u.g0 u.g1, unit_clamp u.b0 u.b1, fin]
  | subtract =>
    rw [C37_channel_modes .Subtract _ rfl _ _ z i]
    simp only [sub_zero, m0]
    rw [unit_clamp u.r0 u.r1, unit_clamp u.g0 u.g1, unit_clamp u.b0 u.b1, fin]
  | lighten =>
    rw [C37_channel_modes .Lighten _ rfl _ _ z i]
    simp only [max_eq_left u.r0, max_eq_left u.g0, max_eq_left u.b0, m0]
    rw [unit_clamp u.r0 u.r1, unit_clamp u.g0 u.g1, unit_clamp u.b0 u.b1, fin]
  | darken =>
    rw [C37_channel_modes .Darken _ rfl _ _ z' i]
    simp only [min_eq_left u.r1, min_eq_left u.g1, min_eq_left u.b1, m0]
    rw [unit_clamp u.r0 u.r1, unit_clamp u.g0 u.g1, unit_clamp u.b0 u.b1, fin]

/-- **Adding and subtracting again** gives back every channel, except that it is limited to 1 minus that of the other picture. -/
theorem C141_add_subtract {a b : PixelBuffer (Col ℝ)} {w h p q} (sa : Shows a w h p) (sb : Shows b w h q)
    (oa : ∀ x y, x < w → y < h → Opaque (p x y)) (ob : ∀ x y, x < w → y < h → Opaque (q x y)) :
    ∃ s r, blend_image a b .Addition 1 = .ok s ∧ blend_image s b .Subtract 1 = .ok r ∧
      Shows r w h fun x y => ⟨min (p x y).c0 (1 - (q x y).c0), min (p x y).c1 (1 - (q x y).c1), min (p x y).c2 (1 - (q x y).c2), 1⟩ := by
  obtain ⟨s, e1, s1⟩ := blend_same sa sb .Addition 1
  obtain ⟨r, e2, s2⟩ := blend_same s1 sb .Subtract 1
  refine ⟨s, r, e1, e2, s2.congr fun x y hx hy => ?_⟩
  have hp := oa x y hx hy
  have hq := ob x y hx hy
  have hs := even_opaque (op := .Addition) (by simp [evenModes]) hp hq
  rw [(C37_intensity_one _ _ hs.1 hq.1 hq.2).2.1, (C37_intensity_one _ _ hp.1 hq.1 hq.2).1]
  have one : ∀ {u v : ℝ}, 0 ≤ u → v ≤ 1 → max 0 (min 1 (u + v) - v) = min u (1 - v) := by
    intro u v hu hv
    rcases le_total 1 (u + v) with h | h
    · rw [min_eq_left h, min_eq_right (by linarith), max_eq_right (by linarith)]
    · rw [min_eq_right h, min_eq_left (by linarith), add_sub_cancel_right, max_eq_right hu]
  simp only
  rw [one hp.1.r0 hq.1.r1, one hp.1.g0 hq.1.g1, one hp.1.b0 hq.1.b1]

/-! ## The hypotheses can be met -/

/-- An opaque colour and a picture of it. -/
example : Opaque ⟨1 / 4, 1 / 2, 1, 1⟩ ∧
    Shows (⟨2, 1, rows 2 1 fun _ _ => ⟨1 / 4, 1 / 2, 1, 1⟩⟩ : PixelBuffer (Col ℝ)) 2 1 fun _ _ => ⟨1 / 4, 1 / 2, 1, 1⟩ :=
  ⟨⟨by constructor <;> norm_num, rfl⟩, rfl, rfl, .inr (by norm_num), rfl⟩

end D10
