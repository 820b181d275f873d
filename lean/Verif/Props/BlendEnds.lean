import Verif.SpecBlendLaws
import Verif.Props.CompositeFloat
import Verif.Props.BlendLawsFloat

/-!
# C150: blending that shows nothing of the second picture, with 32-bit numbers
-/

namespace D10
open Spec
open Scalar (lit)

section
variable [Libm b32]

/-- Mixing with the weight 0. -/
theorem mix_nothing {v m t : F32} (hv : Chan v) (hm : m.fin = true) (ht : t.fin = true) (t0 : t.val = 0) :
    (clamp01 (apply_intensity v m t) : F32).val = v.val := by
  have ct : Chan t := ⟨ht, by rw [t0], by rw [t0]; norm_num⟩
  have hk := (complement_is ct).2.1
  have k1 := (complement_end ct).2 t0
  obtain ⟨a0, a1⟩ := times_full hv.1 hk.1 k1
  obtain ⟨b0, b1, -, -⟩ := times_nothing hm ht t0
  exact sum_one_side a0 b0 hv (by rw [a1, b1, add_zero])

theorem two_chans {v w : F32} (hv : Chan v) (hw : Chan w) :
    (v +. w : F32).fin = true ∧ (v -. w : F32).fin = true ∧ (Scalar.min v w : F32).fin = true ∧ (Scalar.max v w : F32).fin = true := by
  have p : pow2 1 = 2 := by rw [pow2_eq]; norm_num
  have e1 : (v +. w : F32) = FP.ofRat b32 (v.isNeg && w.isNeg) (v.val + w.val) := by
    show FP.add v w = _
    rw [FP.add_fin hv.1 hw.1]
  have e2 : (v -. w : F32) = FP.ofRat b32 (v.isNeg && w.neg.isNeg) (v.val - w.val) := by
    show FP.sub v w = _
    rw [FP.sub_fin hv.1 hw.1]
  refine ⟨?_, ?_, (NearF.min_fin hv.1 hw.1).1, (NearF.max_fin hv.1 hw.1).1⟩
  · rw [e1]
    exact (FP.ofRat_small (k := 1) (by decide) (by decide)
      (by rw [p, abs_le]; constructor <;> linarith [hv.2.1, hv.2.2, hw.2.1, hw.2.2])).1
  · rw [e2]
    exact (FP.ofRat_small (k := 1) (by decide) (by decide)
      (by rw [p, abs_le]; constructor <;> linarith [hv.2.1, hv.2.2, hw.2.1, hw.2.2])).1

/-- **Intensity 0, or a transparent second colour**: the channels of the first colour are kept to the last bit, but the alpha is the
one of the second. -/
theorem C150_nothing {op : BlendOp} (hop : op ∈ [BlendOp.Addition, .Subtract, .Darken, .Lighten]) {c o : Col F32} (hc : UnitCol c)
    (ho : UnitCol o) {i : F32} (hi : i.fin = true) (h0 : i.val = 0 ∨ o.alpha.val = 0) :
    exact (modeFunction op c o i) = { exact c with alpha := (o.alpha.val : ℝ) } := by
  have t : (i *. o.alpha : F32).fin = true ∧ (i *. o.alpha : F32).val = 0 := by
    rcases h0 with h | h
    · obtain ⟨-, -, a, b⟩ := times_nothing ho.alpha.1 hi h
      exact ⟨a, b⟩
    · obtain ⟨a, b, -, -⟩ := times_nothing hi ho.alpha.1 h
      exact ⟨a, b⟩
  have key : ∀ f : F32 → F32 → F32, (∀ v w, Chan v → Chan w → (f v w).fin = true) →
      exact (blend_color c o i f) = { exact c with alpha := (o.alpha.val : ℝ) } := by
    intro f hf
    have one : ∀ {v w : F32}, Chan v → Chan w → (clamp01 (apply_intensity v (f v w) (i *. o.alpha)) : F32).val = v.val :=
      fun hv hw => mix_nothing hv (hf _ _ hv hw) t.1 t.2
    have al : (clamp01 o.alpha : F32).val = o.alpha.val := by
      rw [(NearF.clamp_fin ho.alpha.1).2, min_eq_right ho.alpha.2.2, max_eq_right ho.alpha.2.1]
    show (⟨((clamp01 (apply_intensity c.c0 (f c.c0 o.c0) (i *. o.alpha)) : F32).val : ℝ),
      ((clamp01 (apply_intensity c.c1 (f c.c1 o.c1) (i *. o.alpha)) : F32).val : ℝ),
      ((clamp01 (apply_intensity c.c2 (f c.c2 o.c2) (i *. o.alpha)) : F32).val : ℝ), ((clamp01 o.alpha : F32).val : ℝ)⟩ : Col ℝ) = _
    rw [one hc.c0 ho.c0, one hc.c1 ho.c1, one hc.c2 ho.c2, al]
    rfl
  simp only [List.mem_cons, List.not_mem_nil, or_false] at hop
  rcases hop with rfl | rfl | rfl | rfl
  · exact key _ fun v w hv hw => (two_chans hv hw).1
  · exact key _ fun v w hv hw => (two_chans hv hw).2.1
  · exact key _ fun v w hv hw => (two_chans hv hw).2.2.1
  · exact key _ fun v w hv hw => (two_chans hv hw).2.2.2

/-- **The normal mode**: with intensity 0 or a transparent second colour the first colour is kept, its alpha too; an opaque second
colour with intensity 1 replaces it. -/
theorem C150_normal {c o : Col F32} (hc : UnitCol c) (ho : UnitCol o) {i : F32} (hi : i.fin = true) :
    (i.val = 0 ∨ o.alpha.val = 0 → exact (modeFunction .Normal c o i) = exact c) ∧
    (i.val = 1 → o.alpha.val = 1 → exact (modeFunction .Normal c o i) = exact o) := by
  have unit : ∀ {a : F32}, Chan a → UnitCol (⟨o.c0, o.c1, o.c2, a⟩ : Col F32) := fun h => ⟨ho.c0, ho.c1, ho.c2, h⟩
  constructor
  · intro h0
    have t : (o.alpha *. i : F32).fin = true ∧ (o.alpha *. i : F32).val = 0 := by
      rcases h0 with h | h
      · obtain ⟨a, b, -, -⟩ := times_nothing ho.alpha.1 hi h
        exact ⟨a, b⟩
      · obtain ⟨-, -, a, b⟩ := times_nothing hi ho.alpha.1 h
        exact ⟨a, b⟩
    have ct : Chan (o.alpha *. i : F32) := ⟨t.1, by rw [t.2], by rw [t.2]; norm_num⟩
    exact (C149_ends c ⟨o.c0, o.c1, o.c2, o.alpha *. i⟩ hc (unit ct)).2 t.2
  · intro i1 o1
    obtain ⟨a, b⟩ := times_full ho.alpha.1 hi i1
    rw [o1] at b
    have ct : Chan (o.alpha *. i : F32) := ⟨a, by rw [b]; norm_num, by rw [b]⟩
    have fin : ∀ {t : F32}, t.val = 1 → exact (⟨o.c0, o.c1, o.c2, t⟩ : Col F32) = exact o := by
      intro t ht
      simp only [exact, ht, o1]
    exact ((C149_ends c ⟨o.c0, o.c1, o.c2, o.alpha *. i⟩ hc (unit ct)).1 b).trans (fin b)

/-- **Pictures** of the same size: with intensity 0 the normal mode gives the numbers of the first picture. -/
theorem C150_picture {a b : PixelBuffer (Col F32)} {w h p p'} (sa : Shows a w h p) (sb : Shows b w h p')
    (ua : ∀ x y, x < w → y < h → UnitCol (p x y)) (ub : ∀ x y, x < w → y < h → UnitCol (p' x y)) {i : F32} (hi : i.fin = true)
    (i0 : i.val = 0) :
    ∃ r, blend_image a b .Normal i = .ok r ∧ r.width = w ∧ r.height = h ∧ r.data.map exact = a.data.map exact := by
  obtain ⟨r, e, s⟩ := blend_same_float sa sb .Normal i
  refine ⟨r, e, s.width, s.height, ?_⟩
  have s1 := C07_map_colors s exact
  have s2 := C07_map_colors sa exact
  have k := Shows.eq s1 (s2.congr fun x y hx hy => ((C150_normal (ua x y hx hy) (ub x y hx hy) hi).1 (.inl i0)).symm)
  exact congrArg PixelBuffer.data k

end

/-- Non-vacuity: colours in the range and the intensity 0. -/
example : UnitCol (⟨darkest, darkest, darkest, darkest⟩ : Col F32) ∧ (FP.ofRat b32 false 0).fin = true ∧ (FP.ofRat b32 false 0).val = 0 :=
  ⟨⟨darkest_chan, darkest_chan, darkest_chan, darkest_chan⟩, FP.lit0.1, FP.lit0.2⟩

end D10
