import Verif.SpecAccuracy
import Verif.SpecBlendLaws
import Verif.Props.BlendLaws
import Verif.Props.BlendFloat

/-!
# C141: which laws of blending hold with 32-bit numbers
-/

namespace D10
open Spec
open Scalar (lit)

section
variable [Libm b32]

theorem times_full {m t : F32} (hm : m.fin = true) (ht : t.fin = true) (t1 : t.val = 1) : (m *. t).fin = true ∧ (m *. t).val = m.val := by
  obtain ⟨r, l⟩ := FP.fin_rep hm
  have e : (m *. t : F32) = FP.ofRat b32 (m.isNeg ^^ t.isNeg) m.val := by
    show FP.mul m t = _
    rw [FP.mul_fin hm ht, t1, mul_one]
  rw [e]
  exact FP.ofRat_rep r l

theorem apply_full {v m t : F32} (hv : v.fin = true) (hm : m.fin = true) (ht : t.fin = true) (t1 : t.val = 1) :
    (apply_intensity v m t).fin = true ∧ (apply_intensity v m t).val = m.val := by
  have z : ∀ s, (FP.ofRat b32 s 0).fin = true ∧ (FP.ofRat b32 s 0).val = 0 := fun s => by
    rw [FP.ofRat_zero]; exact ⟨rfl, rfl⟩
  have e1 : (lit 1 -. t : F32).fin = true ∧ (lit 1 -. t : F32).val = 0 := by
    have e : (lit 1 -. t : F32) = FP.ofRat b32 ((FP.ofRat b32 false 1).isNeg && t.neg.isNeg) 0 := by
      show FP.sub (FP.ofRat b32 false 1) t = _
      rw [FP.sub_fin FP.lit1.1 ht, t1, FP.lit1.2, sub_self]
    rw [e]; exact z _
  have e2 : (v *. (lit 1 -. t) : F32).fin = true ∧ (v *. (lit 1 -. t) : F32).val = 0 := by
    have e : (v *. (lit 1 -. t) : F32) = FP.ofRat b32 (v.isNeg ^^ (lit 1 -. t : F32).isNeg) 0 := by
      show FP.mul v _ = _
      rw [FP.mul_fin hv e1.1, e1.2, mul_zero]
    rw [e]; exact z _
  obtain ⟨e3, e4⟩ := times_full hm ht t1
  have e : apply_intensity v m t = FP.ofRat b32 ((v *. (lit 1 -. t) : F32).isNeg && (m *. t : F32).isNeg) m.val := by
    show FP.add _ _ = _
    rw [FP.add_fin e2.1 e3, e2.2, e4, zero_add]
  rw [e]
  obtain ⟨r, l⟩ := FP.fin_rep hm
  exact FP.ofRat_rep r l

/-- One colour at full intensity: the clamped value of the function. -/
theorem color_full {c d : Col F32} (hc : UnitCol c) (hd : UnitCol d) (ho : d.alpha.val = 1) {i : F32} (hi : i.fin = true) (i1 : i.val = 1)
    {f : F32 → F32 → F32} {g : ℚ → ℚ → ℚ}
    (hf : ∀ v w : F32, v.fin = true ∧ 0 ≤ v.val ∧ v.val ≤ 1 → w.fin = true ∧ 0 ≤ w.val ∧ w.val ≤ 1 →
      (f v w).fin = true ∧ max 0 (min 1 (f v w).val) = g v.val w.val) :
    UnitCol (blend_color c d i f) ∧
      exact (blend_color c d i f) = ⟨(g c.c0.val d.c0.val : ℚ), (g c.c1.val d.c1.val : ℚ), (g c.c2.val d.c2.val : ℚ), 1⟩ := by
  obtain ⟨t0, t1⟩ := times_full hi hd.alpha.1 ho
  rw [i1] at t1
  have one : ∀ {v w : F32}, v.fin = true ∧ 0 ≤ v.val ∧ v.val ≤ 1 → w.fin = true ∧ 0 ≤ w.val ∧ w.val ≤ 1 →
      (clamp01 (apply_intensity v (f v w) (i *. d.alpha))).fin = true ∧
      (clamp01 (apply_intensity v (f v w) (i *. d.alpha))).val = g v.val w.val := by
    intro v w hv hw
    obtain ⟨f0, f1⟩ := hf v w hv hw
    obtain ⟨a0, a1⟩ := apply_full hv.1 f0 t0 t1
    obtain ⟨k0, k1⟩ := NearF.clamp_fin a0
    refine ⟨k0, ?_⟩
    rw [k1, a1]; exact f1
  obtain ⟨k0, k1⟩ := NearF.clamp_fin hd.alpha.1
  have r0 := one hc.c0 hd.c0
  have r1 := one hc.c1 hd.c1
  have r2 := one hc.c2 hd.c2
  refine ⟨⟨clamped_unit r0.1, clamped_unit r1.1, clamped_unit r2.1, clamped_unit k0⟩, ?_⟩
  unfold exact
  have ka : (clamp01 d.alpha).val = 1 := by rw [k1, ho]; norm_num
  show (⟨((clamp01 (apply_intensity c.c0 (f c.c0 d.c0) (i *. d.alpha))).val : ℝ), _, _, ((clamp01 d.alpha).val : ℝ)⟩ : Col ℝ) = _
  rw [r0.2, ka]
  show (⟨_, ((clamp01 (apply_intensity c.c1 (f c.c1 d.c1) (i *. d.alpha))).val : ℝ),
    ((clamp01 (apply_intensity c.c2 (f c.c2 d.c2) (i *. d.alpha))).val : ℝ), _⟩ : Col ℝ) = _
  rw [r1.2, r2.2]
  norm_num

/-- **Full intensity with 32-bit numbers**: keeping the darker or the lighter channels is exact, a sum or a difference is the
nearest 32-bit number, limited to [0, 1]. -/
theorem C141_full_float {c d : Col F32} (hc : UnitCol c) (hd : UnitCol d) (ho : d.alpha.val = 1) {i : F32} (hi : i.fin = true)
    (i1 : i.val = 1) :
    (exact (modeFunction .Darken c d i) =
      ⟨min c.c0.val d.c0.val, min c.c1.val d.c1.val, min c.c2.val d.c2.val, 1⟩) ∧
    (exact (modeFunction .Lighten c d i) =
      ⟨max c.c0.val d.c0.val, max c.c1.val d.c1.val, max c.c2.val d.c2.val, 1⟩) ∧
    (exact (modeFunction .Addition c d i) =
      ⟨((min 1 (rn b32 (c.c0.val + d.c0.val)) : ℚ) : ℝ), ((min 1 (rn b32 (c.c1.val + d.c1.val)) : ℚ) : ℝ),
       ((min 1 (rn b32 (c.c2.val + d.c2.val)) : ℚ) : ℝ), 1⟩) ∧
    (exact (modeFunction .Subtract c d i) =
      ⟨((max 0 (rn b32 (c.c0.val - d.c0.val)) : ℚ) : ℝ), ((max 0 (rn b32 (c.c1.val - d.c1.val)) : ℚ) : ℝ),
       ((max 0 (rn b32 (c.c2.val - d.c2.val)) : ℚ) : ℝ), 1⟩) ∧
    ∀ op ∈ [BlendOp.Darken, .Lighten, .Addition, .Subtract], UnitCol (modeFunction op c d i) := by
  have dk := color_full hc hd ho hi i1 (f := fun v w => Scalar.min v w) (g := min) (by
    intro v w hv hw
    obtain ⟨a, b⟩ := NearF.min_fin hv.1 hw.1
    refine ⟨a, ?_⟩
    rw [b, min_eq_right ((min_le_left _ _).trans hv.2.2), max_eq_right (le_min hv.2.1 hw.2.1)])
  have lt := color_full hc hd ho hi i1 (f := fun v w => Scalar.max v w) (g := max) (by
    intro v w hv hw
    obtain ⟨a, b⟩ := NearF.max_fin hv.1 hw.1
    refine ⟨a, ?_⟩
    rw [b, min_eq_right (max_le hv.2.2 hw.2.2), max_eq_right (hv.2.1.trans (le_max_left _ _))])
  have ad := color_full hc hd ho hi i1 (f := fun v w => v +. w) (g := fun a b => min 1 (rn b32 (a + b))) (by
    intro v w hv hw
    have e : (v +. w : F32) = FP.ofRat b32 (v.isNeg && w.isNeg) (v.val + w.val) := FP.add_fin hv.1 hw.1
    have s := FP.ofRat_small (s := v.isNeg && w.isNeg) (q := v.val + w.val) (k := 1) (by decide) (by decide) (by
      rw [show pow2 1 = 2 from rfl, abs_of_nonneg (add_nonneg hv.2.1 hw.2.1)]; linarith [hv.2.2, hw.2.2])
    rw [e]
    refine ⟨s.1, ?_⟩
    rw [s.2]
    exact max_eq_right (le_min zero_le_one (rn_nonneg (add_nonneg hv.2.1 hw.2.1))))
  have sb := color_full hc hd ho hi i1 (f := fun v w => v -. w) (g := fun a b => max 0 (rn b32 (a - b))) (by
    intro v w hv hw
    have e : (v -. w : F32) = FP.ofRat b32 (v.isNeg && w.neg.isNeg) (v.val - w.val) := FP.sub_fin hv.1 hw.1
    have s := FP.ofRat_unit (s := v.isNeg && w.neg.isNeg) (q := v.val - w.val) (by
      rw [abs_le]; constructor <;> linarith [hv.2.1, hv.2.2, hw.2.1, hw.2.2])
    rw [e]
    refine ⟨s.1, ?_⟩
    rw [s.2.1, min_eq_right (le_of_abs_le s.2.2.2)])
  refine ⟨?_, ?_, ad.2, sb.2, ?_⟩
  · have := dk.2
    push_cast at this
    exact this
  · have := lt.2
    push_cast at this
    exact this
  · intro op hop
    simp only [List.mem_cons, List.not_mem_nil, or_false] at hop
    rcases hop with rfl | rfl | rfl | rfl
    · exact dk.1
    · exact lt.1
    · exact ad.1
    · exact sb.1

omit [Libm b32] in
/-- The colours of two pictures have the same values. -/
theorem same_values {r r' : PixelBuffer (Col F32)} {w h p p'} (s : Shows r w h p) (s' : Shows r' w h p')
    (e : ∀ x y, x < w → y < h → exact (p x y) = exact (p' x y)) :
    r.width = r'.width ∧ r.height = r'.height ∧ r.data.map exact = r'.data.map exact := by
  refine ⟨by rw [s.width, s'.width], by rw [s.height, s'.height], ?_⟩
  rw [s.pixels, s'.pixels]
  unfold rows
  simp only [List.map_flatMap, List.map_map]
  refine List.flatMap_congr fun y hy => List.map_congr_left fun x hx => ?_
  exact e x y (List.mem_range.1 hx) (List.mem_range.1 hy)

theorem even_swap_float {op : BlendOp} (hop : op ∈ evenModes) {c d : Col F32} (hc : UnitCol c) (hd : UnitCol d) (c1 : c.alpha.val = 1)
    (d1 : d.alpha.val = 1) {i : F32} (hi : i.fin = true) (i1 : i.val = 1) :
    exact (modeFunction op c d i) = exact (modeFunction op d c i) := by
  obtain ⟨a1, a2, a3, -, -⟩ := C141_full_float hc hd d1 hi i1
  obtain ⟨b1, b2, b3, -, -⟩ := C141_full_float hd hc c1 hi i1
  simp only [evenModes, List.mem_cons, List.not_mem_nil, or_false] at hop
  rcases hop with rfl | rfl | rfl
  · rw [a3, b3, add_comm c.c0.val, add_comm c.c1.val, add_comm c.c2.val]
  · rw [a1, b1, min_comm (c.c0.val : ℝ), min_comm (c.c1.val : ℝ), min_comm (c.c2.val : ℝ)]
  · rw [a2, b2, max_comm (c.c0.val : ℝ), max_comm (c.c1.val : ℝ), max_comm (c.c2.val : ℝ)]

/-- **Swapping with 32-bit numbers**: both ways give the same values, without any tolerance, or both sizes are refused. -/
theorem C141_swap_float {op : BlendOp} (hop : op ∈ evenModes) {a b : PixelBuffer (Col F32)} {w h p w' h' p'} (sa : Shows a w h p)
    (sb : Shows b w' h' p') (oa : ∀ x y, x < w → y < h → UnitCol (p x y) ∧ (p x y).alpha.val = 1)
    (ob : ∀ x y, x < w' → y < h' → UnitCol (p' x y) ∧ (p' x y).alpha.val = 1) {i : F32} (hi : i.fin = true) (i1 : i.val = 1) :
    (∃ r r', blend_image a b op i = .ok r ∧ blend_image b a op i = .ok r' ∧
      r.width = r'.width ∧ r.height = r'.height ∧ r.data.map exact = r'.data.map exact) ∨
    (blend_image a b op i = .error .invalidSize ∧ blend_image b a op i = .error .invalidSize) := by
  obtain ⟨y1, n1⟩ := C36_blend_image sa sb op i
  obtain ⟨y2, n2⟩ := C36_blend_image sb sa op i
  rw [max_comm w' w, max_comm h' h] at y2 n2
  by_cases hv : ValidSize (max w w') (max h h')
  · obtain ⟨r, e, s⟩ := y1 hv
    obtain ⟨r', e', s'⟩ := y2 hv
    refine .inl ⟨r, r', e, e', same_values s s' fun x y _ _ => ?_⟩
    by_cases k : x < w ∧ y < h
    · by_cases j : x < w' ∧ y < h'
      · obtain ⟨u, o⟩ := oa x y k.1 k.2
        obtain ⟨u', o'⟩ := ob x y j.1 j.2
        simp only [k, j, and_self, if_true]
        exact even_swap_float hop u u' o o' hi i1
      · simp only [k, j, and_self, if_true, if_false]
    · by_cases j : x < w' ∧ y < h'
      · simp only [k, j, and_self, if_true, if_false]
      · simp only [k, j, if_false]
  · exact .inr ⟨n1 hv, n2 hv⟩

theorem blend_same_float {a b : PixelBuffer (Col F32)} {w h p p'} (sa : Shows a w h p) (sb : Shows b w h p') (op : BlendOp) (i : F32) :
    ∃ r, blend_image a b op i = .ok r ∧ Shows r w h fun x y => modeFunction op (p x y) (p' x y) i := by
  obtain ⟨y, -⟩ := C36_blend_image sa sb op i
  rw [max_self, max_self] at y
  obtain ⟨r, e, s⟩ := y sa.size
  refine ⟨r, e, s.congr fun x y hx hy => ?_⟩
  rw [if_pos ⟨hx, hy⟩, if_pos ⟨hx, hy⟩]

omit [Libm b32] in
/-- The value of an alpha of 1. -/
theorem alpha_of_exact {c : Col F32} {x y z : ℝ} (h : exact c = ⟨x, y, z, 1⟩) : c.alpha.val = 1 := by
  have e : (c.alpha.val : ℝ) = 1 := congrArg Col.alpha h
  exact_mod_cast e

/-- **The order with 32-bit numbers** does not matter for the darker and the lighter channels of pictures of the same size. -/
theorem C141_order_float {op : BlendOp} (hop : op = .Darken ∨ op = .Lighten) {a b c : PixelBuffer (Col F32)} {w h p q r}
    (sa : Shows a w h p) (sb : Shows b w h q) (sc : Shows c w h r)
    (oa : ∀ x y, x < w → y < h → UnitCol (p x y) ∧ (p x y).alpha.val = 1)
    (ob : ∀ x y, x < w → y < h → UnitCol (q x y) ∧ (q x y).alpha.val = 1)
    (oc : ∀ x y, x < w → y < h → UnitCol (r x y) ∧ (r x y).alpha.val = 1) {i : F32} (hi : i.fin = true) (i1 : i.val = 1) :
    ∃ ab bc l m, blend_image a b op i = .ok ab ∧ blend_image b c op i = .ok bc ∧ blend_image ab c op i = .ok l ∧
      blend_image a bc op i = .ok m ∧ l.width = m.width ∧ l.height = m.height ∧ l.data.map exact = m.data.map exact := by
  obtain ⟨ab, e1, s1⟩ := blend_same_float sa sb op i
  obtain ⟨bc, e2, s2⟩ := blend_same_float sb sc op i
  obtain ⟨l, e3, s3⟩ := blend_same_float s1 sc op i
  obtain ⟨m, e4, s4⟩ := blend_same_float sa s2 op i
  refine ⟨ab, bc, l, m, e1, e2, e3, e4, same_values s3 s4 fun x y hx hy => ?_⟩
  obtain ⟨u, -⟩ := oa x y hx hy
  obtain ⟨v, o2⟩ := ob x y hx hy
  obtain ⟨z, o3⟩ := oc x y hx hy
  obtain ⟨p1, p2, -, -, p5⟩ := C141_full_float u v o2 hi i1
  obtain ⟨q1, q2, -, -, q5⟩ := C141_full_float v z o3 hi i1
  have chan : ∀ {c : Col F32} {x y z : ℝ}, exact c = ⟨x, y, z, 1⟩ → (c.c0.val : ℝ) = x ∧ (c.c1.val : ℝ) = y ∧ (c.c2.val : ℝ) = z :=
    fun e => ⟨congrArg Col.c0 e, congrArg Col.c1 e, congrArg Col.c2 e⟩
  rcases hop with rfl | rfl
  · rw [(C141_full_float (p5 .Darken (by simp)) z o3 hi i1).1, (C141_full_float u (q5 .Darken (by simp)) (alpha_of_exact q1) hi i1).1,
      (chan p1).1, (chan p1).2.1, (chan p1).2.2, (chan q1).1, (chan q1).2.1, (chan q1).2.2]
    simp only [min_assoc]
  · rw [(C141_full_float (p5 .Lighten (by simp)) z o3 hi i1).2.1,
      (C141_full_float u (q5 .Lighten (by simp)) (alpha_of_exact q2) hi i1).2.1,
      (chan p2).1, (chan p2).2.1, (chan p2).2.2, (chan q2).1, (chan q2).2.1, (chan q2).2.2]
    simp only [max_assoc]

/-- A grey whose channels are the nearest 32-bit number to `q`. -/
def greyOf (q : ℚ) : Col F32 := ⟨FP.ofRat b32 false q, FP.ofRat b32 false q, FP.ofRat b32 false q, FP.ofRat b32 false 1⟩

/-- **But it does for sums**, which are rounded: 1/2 and twice 2⁻²⁵ add up to 1/2 from the left and to more from the right. -/
theorem C141_sum_order_fails :
    let one : F32 := FP.ofRat b32 false 1
    let a := greyOf (1 / 2)
    let b := greyOf (1 / 33554432)
    (modeFunction .Addition (modeFunction .Addition a b one) b one).c0.val = 1 / 2 ∧
      (modeFunction .Addition a (modeFunction .Addition b b one) one).c0.val = 1 / 2 + 1 / 16777216 := by
  have u1 : UnitCol (greyOf (1 / 2)) := ⟨by decide +kernel, by decide +kernel, by decide +kernel, by decide +kernel⟩
  have u2 : UnitCol (greyOf (1 / 33554432)) := ⟨by decide +kernel, by decide +kernel, by decide +kernel, by decide +kernel⟩
  have o2 : (greyOf (1 / 33554432)).alpha.val = 1 := by decide +kernel
  have v1 : (greyOf (1 / 2)).c0.val = 1 / 2 := by decide +kernel
  have v2 : (greyOf (1 / 33554432)).c0.val = 1 / 33554432 := by decide +kernel
  have hi : (FP.ofRat b32 false 1).fin = true := by decide +kernel
  have i1 : (FP.ofRat b32 false 1).val = 1 := by decide +kernel
  have sum : ∀ {c d : Col F32}, UnitCol c → UnitCol d → d.alpha.val = 1 →
      (modeFunction .Addition c d (FP.ofRat b32 false 1)).c0.val = min 1 (rn b32 (c.c0.val + d.c0.val)) := by
    intro c d hc hd ho
    have e : ((modeFunction .Addition c d (FP.ofRat b32 false 1)).c0.val : ℝ) = ((min 1 (rn b32 (c.c0.val + d.c0.val)) : ℚ) : ℝ) :=
      congrArg Col.c0 (C141_full_float hc hd ho hi i1).2.2.1
    exact_mod_cast e
  obtain ⟨-, -, -, -, k1⟩ := C141_full_float u1 u2 o2 hi i1
  obtain ⟨-, -, e2, -, k2⟩ := C141_full_float u2 u2 o2 hi i1
  have r1 : min 1 (rn b32 (1 / 2 + 1 / 33554432)) = 1 / 2 := by decide +kernel
  have r2 : min 1 (rn b32 (1 / 33554432 + 1 / 33554432)) = 1 / 16777216 := by decide +kernel
  have r3 : min 1 (rn b32 (1 / 2 + 1 / 16777216)) = 1 / 2 + 1 / 16777216 := by decide +kernel
  refine ⟨?_, ?_⟩
  · rw [sum (k1 .Addition (by simp)) u2 o2, sum u1 u2 o2, v1, v2, r1, r1]
  · rw [sum u1 (k2 .Addition (by simp)) (alpha_of_exact e2), sum u2 u2 o2, v1, v2, r2, r3]

/-- **A picture subtracted from itself** is black with 32-bit numbers as well, and darkened or lightened by itself it keeps its values. -/
theorem C141_self_float {a : PixelBuffer (Col F32)} {w h p} (sa : Shows a w h p)
    (oa : ∀ x y, x < w → y < h → UnitCol (p x y) ∧ (p x y).alpha.val = 1) {i : F32} (hi : i.fin = true) (i1 : i.val = 1) :
    (∃ r, blend_image a a .Subtract i = .ok r ∧ r.width = w ∧ r.height = h ∧ ∀ c ∈ r.data, exact c = ⟨0, 0, 0, 1⟩) ∧
    ∀ op, op = .Darken ∨ op = .Lighten →
      ∃ r, blend_image a a op i = .ok r ∧ r.width = w ∧ r.height = h ∧ r.data.map exact = a.data.map exact := by
  constructor
  · obtain ⟨r, e, s⟩ := blend_same_float sa sa .Subtract i
    refine ⟨r, e, s.width, s.height, fun c hc => ?_⟩
    rw [s.pixels] at hc
    simp only [rows, List.mem_flatMap, List.mem_map, List.mem_range] at hc
    obtain ⟨y, hy, x, hx, rfl⟩ := hc
    obtain ⟨u, o⟩ := oa x y hx hy
    rw [(C141_full_float u u o hi i1).2.2.2.1]
    simp [rn_zero]
  · intro op hop
    obtain ⟨r, e, s⟩ := blend_same_float sa sa op i
    refine ⟨r, e, s.width, s.height, (same_values s sa fun x y hx hy => ?_).2.2⟩
    obtain ⟨u, o⟩ := oa x y hx hy
    obtain ⟨k1, k2, -⟩ := C141_full_float u u o hi i1
    have fin : exact (p x y) = ⟨(p x y).c0.val, (p x y).c1.val, (p x y).c2.val, 1⟩ := by unfold exact; rw [o]; norm_num
    rcases hop with rfl | rfl
    · rw [k1, fin]; simp only [min_self]
    · rw [k2, fin]; simp only [max_self]

/-! ## The hypotheses can be met -/

/-- An opaque grey of 32-bit numbers. -/
example : UnitCol (greyOf (1 / 2)) ∧ (greyOf (1 / 2)).alpha.val = 1 ∧ (FP.ofRat b32 false 1).fin = true ∧ (FP.ofRat b32 false 1).val = 1 :=
  ⟨⟨by decide +kernel, by decide +kernel, by decide +kernel, by decide +kernel⟩, by decide +kernel, by decide +kernel, by decide +kernel⟩

end

end D10
