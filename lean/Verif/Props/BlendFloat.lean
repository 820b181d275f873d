import Verif.SpecBlendFloat
import Verif.Props.Chain
import Verif.Props.Blend

/-!
# C130: blending and composing stay close to exact arithmetic
-/

namespace D10
open Spec
open Scalar (lit)

section
variable [Libm b32] [Junk]

/-! ## One colour -/

omit [Libm b32] [Junk] in
/-- Going from `a` to `b` by the fraction `t` enlarges differences by little. -/
theorem mix_sub {a b t a' b' t' ε s : ℝ} (t0 : 0 ≤ t) (t1 : t ≤ 1) (ha : |a - a'| ≤ ε) (hb : |b - b'| ≤ ε) (ht : |t - t'| ≤ s)
    (h : |b' - a'| ≤ 1) : |mix a b t - mix a' b' t'| ≤ ε + s := by
  have e : mix a b t - mix a' b' t' = (1 - t) * (a - a') + t * (b - b') + (t - t') * (b' - a') := by unfold mix; ring
  rw [e]
  have h1 : |(1 - t) * (a - a')| ≤ (1 - t) * ε := by
    rw [abs_mul, abs_of_nonneg (by linarith)]; exact mul_le_mul_of_nonneg_left ha (by linarith)
  have h2 : |t * (b - b')| ≤ t * ε := by
    rw [abs_mul, abs_of_nonneg t0]; exact mul_le_mul_of_nonneg_left hb t0
  have h3 : |(t - t') * (b' - a')| ≤ s := by
    rw [abs_mul]
    calc |t - t'| * |b' - a'| ≤ |t - t'| * 1 := mul_le_mul_of_nonneg_left h (abs_nonneg _)
      _ ≤ s := by linarith
  calc _ ≤ |(1 - t) * (a - a')| + |t * (b - b')| + |(t - t') * (b' - a')| := (abs_add_le _ _).trans (add_le_add (abs_add_le _ _) le_rfl)
    _ ≤ _ := by linarith

omit [Libm b32] [Junk] in
theorem mix_unit {a b t : ℝ} (a0 : 0 ≤ a) (a1 : a ≤ 1) (b0 : 0 ≤ b) (b1 : b ≤ 1) (t0 : 0 ≤ t) (t1 : t ≤ 1) :
    0 ≤ mix a b t ∧ mix a b t ≤ 1 := by
  unfold mix
  constructor <;> nlinarith

omit [Junk] in
theorem near_fraction {i a : F32} (hi : i.fin = true ∧ 0 ≤ i.val ∧ i.val ≤ 1) (ha : a.fin = true ∧ 0 ≤ a.val ∧ a.val ≤ 1) :
    NearF (i *. a) ((i.val : ℝ) * a.val) (1 / 33554432) 1 := by
  refine ((NearF.unit hi).mul 0 (by norm_num) (NearF.unit ha) (by norm_num)).mono (by norm_num) (by norm_num)

omit [Libm b32] [Junk] in
theorem frac_unit {i a : F32} (hi : i.fin = true ∧ 0 ≤ i.val ∧ i.val ≤ 1) (ha : a.fin = true ∧ 0 ≤ a.val ∧ a.val ≤ 1) :
    0 ≤ (i.val : ℝ) * a.val ∧ (i.val : ℝ) * a.val ≤ 1 := by
  have i0 : (0 : ℝ) ≤ i.val := by exact_mod_cast hi.2.1
  have i1 : (i.val : ℝ) ≤ 1 := by exact_mod_cast hi.2.2
  have a0 : (0 : ℝ) ≤ a.val := by exact_mod_cast ha.2.1
  have a1 : (a.val : ℝ) ≤ 1 := by exact_mod_cast ha.2.2
  exact ⟨mul_nonneg i0 a0, by nlinarith⟩

omit [Junk] in
theorem near_rest {t : F32} {q : ℝ} (ht : NearF t q (1 / 33554432) 1) (q0 : 0 ≤ q) (q1 : q ≤ 1) :
    NearF (lit 1 -. t) (1 - q) (3 / 33554432) 1 := by
  refine (NearF.one.sub' (C := 1) 1 (by norm_num) ht (by rw [abs_le]; constructor <;> linarith) (by norm_num)).mono (by norm_num) le_rfl

omit [Junk] in
theorem near_mix {v f t : F32} {p r q : ℝ} (hv : NearF v p 0 1) (hf : NearF f r (2 / 33554432) 2) (ht : NearF t q (1 / 33554432) 1)
    (q0 : 0 ≤ q) (q1 : q ≤ 1) : NearF (apply_intensity v f t) (mix p r q) (1 / 1048576) 3 := by
  unfold apply_intensity
  have h1 := hv.mul 1 (by norm_num) (near_rest ht q0 q1) (by norm_num)
  have h2 := hf.mul 2 (by norm_num) ht (by norm_num)
  exact ((h1.add 2 (by norm_num) h2 (by norm_num)).mono (by norm_num) (by norm_num)).congr (by unfold mix; ring)

omit [Junk] in
theorem near_color {c o : Col F32} (hc : UnitCol c) (ho : UnitCol o) {i : F32} (hi : i.fin = true ∧ 0 ≤ i.val ∧ i.val ≤ 1)
    {f : F32 → F32 → F32} {g : ℝ → ℝ → ℝ} (hf : ∀ v w : F32, NearF v v.val 0 1 → NearF w w.val 0 1 →
      NearF (f v w) (g v.val w.val) (2 / 33554432) 2) :
    CloseCol (1 / 1048576) (blend_color c o i f)
      ⟨max 0 (min 1 (mix c.c0.val (g c.c0.val o.c0.val) (i.val * o.alpha.val))),
       max 0 (min 1 (mix c.c1.val (g c.c1.val o.c1.val) (i.val * o.alpha.val))),
       max 0 (min 1 (mix c.c2.val (g c.c2.val o.c2.val) (i.val * o.alpha.val))), o.alpha.val⟩ := by
  have q := frac_unit hi ho.alpha
  have one : ∀ {v w : F32}, v.fin = true ∧ 0 ≤ v.val ∧ v.val ≤ 1 → w.fin = true ∧ 0 ≤ w.val ∧ w.val ≤ 1 →
      Close (clamp01 (apply_intensity v (f v w) (i *. o.alpha)))
        (max 0 (min 1 (mix v.val (g v.val w.val) (i.val * o.alpha.val)))) (1 / 1048576) := fun hv hw =>
    (near_mix (NearF.unit hv) (hf _ _ (NearF.unit hv) (NearF.unit hw)) (near_fraction hi ho.alpha) q.1 q.2).clamp.close
  refine ⟨one hc.c0 ho.c0, one hc.c1 ho.c1, one hc.c2 ho.c2, ?_⟩
  have a0 : (0 : ℝ) ≤ o.alpha.val := by exact_mod_cast ho.alpha.2.1
  have a1 : (o.alpha.val : ℝ) ≤ 1 := by exact_mod_cast ho.alpha.2.2
  exact (NearF.unit ho.alpha).clamp.is (by rw [min_eq_right a1, max_eq_right a0]) (by norm_num)

omit [Junk] in
theorem near_normal {c o : Col F32} (hc : UnitCol c) (ho : UnitCol o) {i : F32} (hi : i.fin = true ∧ 0 ≤ i.val ∧ i.val ≤ 1) :
    CloseCol (1 / 1048576) (blend_normal c o i)
      ⟨mix c.c0.val o.c0.val (i.val * o.alpha.val), mix c.c1.val o.c1.val (i.val * o.alpha.val),
       mix c.c2.val o.c2.val (i.val * o.alpha.val), min 1 (c.alpha.val + i.val * o.alpha.val)⟩ := by
  have q := frac_unit hi ho.alpha
  have ht : NearF (o.alpha *. i) ((i.val : ℝ) * o.alpha.val) (1 / 33554432) 1 := (near_fraction ho.alpha hi).congr (mul_comm _ _)
  have one : ∀ {v w : F32}, v.fin = true ∧ 0 ≤ v.val ∧ v.val ≤ 1 → w.fin = true ∧ 0 ≤ w.val ∧ w.val ≤ 1 →
      Close (clamp01 (w *. (o.alpha *. i) +. (lit 1 -. (o.alpha *. i)) *. v))
        (mix v.val w.val (i.val * o.alpha.val)) (1 / 1048576) := by
    intro v w hv hw
    have h1 := (NearF.unit hw).mul 1 (by norm_num) ht (by norm_num)
    have h2 := (near_rest ht q.1 q.2).mul 1 (by norm_num) (NearF.unit hv) (by norm_num)
    have v0 : (0 : ℝ) ≤ v.val := by exact_mod_cast hv.2.1
    have v1 : (v.val : ℝ) ≤ 1 := by exact_mod_cast hv.2.2
    have w0 : (0 : ℝ) ≤ w.val := by exact_mod_cast hw.2.1
    have w1 : (w.val : ℝ) ≤ 1 := by exact_mod_cast hw.2.2
    refine ((h1.add 2 (by norm_num) h2 (by norm_num)).clamp).is ?_ (by norm_num)
    rw [show (w.val : ℝ) * (i.val * o.alpha.val) + (1 - i.val * o.alpha.val) * v.val = mix v.val w.val (i.val * o.alpha.val) by
      unfold mix; ring]
    obtain ⟨m0, m1⟩ := mix_unit v0 v1 w0 w1 q.1 q.2
    rw [min_eq_right m1, max_eq_right m0]
  refine ⟨one hc.c0 ho.c0, one hc.c1 ho.c1, one hc.c2 ho.c2, ?_⟩
  have a0 : (0 : ℝ) ≤ c.alpha.val := by exact_mod_cast hc.alpha.2.1
  have h := ((NearF.unit hc.alpha).add 2 (by norm_num) ht (by norm_num)).min NearF.one
  refine (h.clamp).is ?_ (by norm_num)
  rw [min_comm _ (1 : ℝ), ← min_assoc, min_self, max_eq_right (le_min zero_le_one (by linarith [q.1]))]

omit [Libm b32] in
theorem plain_unit (op : BlendOp) (hop : op ∈ plainModes) {c o : Col ℝ} (hc : UnitReal c) (ho : UnitReal o) {i : ℝ}
    (i0 : 0 ≤ i) (i1 : i ≤ 1) : UnitReal (modeFunction op c o i) := by
  have lim : ∀ v : ℝ, 0 ≤ max 0 (min 1 v) ∧ max 0 (min 1 v) ≤ 1 := fun v =>
    ⟨le_max_left _ _, max_le zero_le_one (min_le_left _ _)⟩
  cases hm : channelMode op with
  | some f =>
    rw [C37_channel_modes op f hm c o ho.unit i]
    exact ⟨lim _, lim _, lim _, ho.alpha⟩
  | none =>
    have e : op = .Normal := by
      simp only [plainModes, List.mem_cons, List.not_mem_nil, or_false] at hop
      rcases hop with rfl | rfl | rfl | rfl | rfl <;> first | rfl | cases hm
    subst e
    rw [C37_normal c o hc.unit ho.unit i i0 i1]
    have t0 : 0 ≤ i * o.alpha := mul_nonneg i0 ho.alpha.1
    have t1 : i * o.alpha ≤ 1 := by nlinarith [ho.alpha.1, ho.alpha.2]
    exact ⟨mix_unit hc.c0.1 hc.c0.2 ho.c0.1 ho.c0.2 t0 t1, mix_unit hc.c1.1 hc.c1.2 ho.c1.1 ho.c1.2 t0 t1,
      mix_unit hc.c2.1 hc.c2.2 ho.c2.1 ho.c2.2 t0 t1, le_min zero_le_one (by linarith [hc.alpha.1]), min_le_left _ _⟩

/-- **Rounding.** The five modes that compute with the channels as they are: on colours in range and with an intensity in
[0, 1] no channel is off by more than 2^-20. -/
theorem C130_modes (op : BlendOp) (hop : op ∈ plainModes) {c o : Col F32} (hc : UnitCol c) (ho : UnitCol o) {i : F32}
    (hi : i.fin = true ∧ 0 ≤ i.val ∧ i.val ≤ 1) :
    CloseCol (1 / 2 ^ 20) (modeFunction op c o i) (modeFunction op (exact c) (exact o) (i.val : ℝ)) := by
  have i0 : (0 : ℝ) ≤ i.val := by exact_mod_cast hi.2.1
  have i1 : (i.val : ℝ) ≤ 1 := by exact_mod_cast hi.2.2
  have e := C37_channel_modes op
  rw [show (1 : ℝ) / 2 ^ 20 = 1 / 1048576 by norm_num]
  simp only [plainModes, List.mem_cons, List.not_mem_nil, or_false] at hop
  rcases hop with rfl | rfl | rfl | rfl | rfl
  · rw [C37_normal _ _ (exact_unitReal hc).unit (exact_unitReal ho).unit _ i0 i1]
    exact near_normal hc ho hi
  · rw [e _ rfl _ _ (exact_unitReal ho).unit]
    exact near_color (g := fun a b => a + b) hc ho hi fun v w hv hw =>
      (hv.add 1 (by norm_num) hw (by norm_num)).mono (by norm_num) (by norm_num)
  · rw [e _ rfl _ _ (exact_unitReal ho).unit]
    exact near_color (g := fun a b => a - b) hc ho hi fun v w hv hw =>
      (hv.sub 1 (by norm_num) hw (by norm_num)).mono (by norm_num) (by norm_num)
  · rw [e _ rfl _ _ (exact_unitReal ho).unit]
    exact near_color (g := fun a b => min a b) hc ho hi fun v w hv hw => (hv.min hw).mono (by norm_num) (by norm_num)
  · rw [e _ rfl _ _ (exact_unitReal ho).unit]
    exact near_color (g := fun a b => max a b) hc ho hi fun v w hv hw => (hv.max hw).mono (by norm_num) (by norm_num)

/-- **Differences.** What each mode makes of differences there already were, in exact arithmetic. -/
theorem C130_factor (op : BlendOp) (hop : op ∈ plainModes) {c o c' o' : Col ℝ} (hc : UnitReal c) (ho : UnitReal o)
    (hc' : UnitReal c') (ho' : UnitReal o') {i : ℝ} (i0 : 0 ≤ i) (i1 : i ≤ 1) {t : ℝ} (h : ApartBy t c c') (h' : ApartBy t o o') :
    ApartBy (modeFactor op i * t) (modeFunction op c o i) (modeFunction op c' o' i) := by
  have t0 : 0 ≤ t := (abs_nonneg _).trans h.1
  have f0 : 0 ≤ i * o.alpha := mul_nonneg i0 ho.alpha.1
  have f1 : i * o.alpha ≤ 1 := by nlinarith [ho.alpha.1, ho.alpha.2]
  have fi : i * o.alpha ≤ i := by nlinarith [ho.alpha.1, ho.alpha.2]
  have hs : |i * o.alpha - i * o'.alpha| ≤ i * t := by
    rw [← mul_sub, abs_mul, abs_of_nonneg i0]; exact mul_le_mul_of_nonneg_left h'.2.2.2 i0
  have e := C37_channel_modes op
  have gap : ∀ {a b : ℝ}, 0 ≤ a ∧ a ≤ 1 → 0 ≤ b ∧ b ≤ 1 → |b - a| ≤ 1 := fun ha hb => by
    rw [abs_le]; constructor <;> linarith [ha.1, ha.2, hb.1, hb.2]
  have sum : ∀ {v w v' w' : ℝ} (s : ℝ), |s| ≤ 1 → |v - v'| ≤ t → |w - w'| ≤ t → 0 ≤ w' ∧ w' ≤ 1 →
      |mix v (v + s * w) (i * o.alpha) - mix v' (v' + s * w') (i * o'.alpha)| ≤ (1 + 2 * i) * t := by
    intro v w v' w' s hs1 hv hw hw'
    have e : mix v (v + s * w) (i * o.alpha) - mix v' (v' + s * w') (i * o'.alpha) =
        (v - v') + s * ((i * o.alpha) * (w - w') + (i * o.alpha - i * o'.alpha) * w') := by unfold mix; ring
    rw [e]
    have h1 : |i * o.alpha * (w - w')| ≤ i * t := by
      rw [abs_mul, abs_of_nonneg f0]; exact mul_le_mul fi hw (abs_nonneg _) i0
    have h2 : |(i * o.alpha - i * o'.alpha) * w'| ≤ i * t := by
      rw [abs_mul, abs_of_nonneg hw'.1]
      calc _ ≤ i * t * 1 := mul_le_mul hs hw'.2 hw'.1 (by positivity)
        _ = _ := mul_one _
    have h3 : |s * ((i * o.alpha) * (w - w') + (i * o.alpha - i * o'.alpha) * w')| ≤ 2 * i * t := by
      rw [abs_mul]
      calc _ ≤ 1 * (i * t + i * t) := mul_le_mul hs1 ((abs_add_le _ _).trans (add_le_add h1 h2)) (abs_nonneg _) (by norm_num)
        _ = _ := by ring
    exact (abs_add_le _ _).trans ((add_le_add hv h3).trans (by linarith))
  have minu : ∀ {a b : ℝ}, 0 ≤ a ∧ a ≤ 1 → 0 ≤ b ∧ b ≤ 1 → 0 ≤ min a b ∧ min a b ≤ 1 := fun ha hb =>
    ⟨le_min ha.1 hb.1, (min_le_left _ _).trans ha.2⟩
  have maxu : ∀ {a b : ℝ}, 0 ≤ a ∧ a ≤ 1 → 0 ≤ b ∧ b ≤ 1 → 0 ≤ max a b ∧ max a b ≤ 1 := fun ha hb =>
    ⟨ha.1.trans (le_max_left _ _), max_le ha.2 hb.2⟩
  have mono : t ≤ (1 + i) * t := by nlinarith
  have mono2 : t ≤ (1 + 2 * i) * t := by nlinarith
  obtain ⟨p0, p1, p2, p3⟩ := h
  obtain ⟨r0, r1, r2, r3⟩ := h'
  simp only [plainModes, List.mem_cons, List.not_mem_nil, or_false] at hop
  rcases hop with rfl | rfl | rfl | rfl | rfl
  · rw [C37_normal _ _ hc.unit ho.unit _ i0 i1, C37_normal _ _ hc'.unit ho'.unit _ i0 i1]
    have k := fun {a b a' b' : ℝ} (ha : |a - a'| ≤ t) (hb : |b - b'| ≤ t) (g : |b' - a'| ≤ 1) =>
      (mix_sub f0 f1 ha hb hs g).trans (show t + i * t ≤ (1 + i) * t by linarith)
    refine ⟨k p0 r0 (gap hc'.c0 ho'.c0), k p1 r1 (gap hc'.c1 ho'.c1), k p2 r2 (gap hc'.c2 ho'.c2), ?_⟩
    refine (NearF.min_sub_min _ _ _ _).trans (max_le (by simp; unfold modeFactor; positivity) ?_)
    rw [show c.alpha + i * o.alpha - (c'.alpha + i * o'.alpha) = (c.alpha - c'.alpha) + (i * o.alpha - i * o'.alpha) by ring]
    exact (abs_add_le _ _).trans ((add_le_add p3 hs).trans (show t + i * t ≤ (1 + i) * t by linarith))
  · rw [e _ rfl _ _ ho.unit, e _ rfl _ _ ho'.unit]
    have k := fun {v w v' w' : ℝ} (hv : |v - v'| ≤ t) (hw : |w - w'| ≤ t) (u : 0 ≤ w' ∧ w' ≤ 1) => by
      have := sum 1 (by norm_num) hv hw u
      rw [one_mul, one_mul] at this
      exact (clamp_sub _ _).trans this
    exact ⟨k p0 r0 ho'.c0, k p1 r1 ho'.c1, k p2 r2 ho'.c2, r3.trans mono2⟩
  · rw [e _ rfl _ _ ho.unit, e _ rfl _ _ ho'.unit]
    have k := fun {v w v' w' : ℝ} (hv : |v - v'| ≤ t) (hw : |w - w'| ≤ t) (u : 0 ≤ w' ∧ w' ≤ 1) => by
      have := sum (-1) (by norm_num) hv hw u
      rw [neg_one_mul, neg_one_mul, ← sub_eq_add_neg, ← sub_eq_add_neg] at this
      exact (clamp_sub _ _).trans this
    exact ⟨k p0 r0 ho'.c0, k p1 r1 ho'.c1, k p2 r2 ho'.c2, r3.trans mono2⟩
  · rw [e _ rfl _ _ ho.unit, e _ rfl _ _ ho'.unit]
    have k := fun {v w v' w' : ℝ} (hv : |v - v'| ≤ t) (hw : |w - w'| ≤ t) (u : 0 ≤ v' ∧ v' ≤ 1) (u' : 0 ≤ w' ∧ w' ≤ 1) =>
      (clamp_sub _ _).trans ((mix_sub f0 f1 hv ((NearF.min_sub_min v w v' w').trans (max_le hv hw)) hs (gap u (minu u u'))).trans
        (show t + i * t ≤ (1 + i) * t by linarith))
    exact ⟨k p0 r0 hc'.c0 ho'.c0, k p1 r1 hc'.c1 ho'.c1, k p2 r2 hc'.c2 ho'.c2, r3.trans mono⟩
  · rw [e _ rfl _ _ ho.unit, e _ rfl _ _ ho'.unit]
    have k := fun {v w v' w' : ℝ} (hv : |v - v'| ≤ t) (hw : |w - w'| ≤ t) (u : 0 ≤ v' ∧ v' ≤ 1) (u' : 0 ≤ w' ∧ w' ≤ 1) =>
      (clamp_sub _ _).trans ((mix_sub f0 f1 hv ((NearF.max_sub_max v w v' w').trans (max_le hv hw)) hs (gap u (maxu u u'))).trans
        (show t + i * t ≤ (1 + i) * t by linarith))
    exact ⟨k p0 r0 hc'.c0 ho'.c0, k p1 r1 hc'.c1 ho'.c1, k p2 r2 hc'.c2 ho'.c2, r3.trans mono⟩

/-! ## Pictures -/

omit [Libm b32] [Junk] in
/-- Two colours that differ by at most `t`, and the exact versions. -/
theorem Spec.CloseCol.apart {t : ℝ} {c : Col F32} {d : Col ℝ} (h : CloseCol t c d) : ApartBy t (exact c) d :=
  ⟨h.c0.err, h.c1.err, h.c2.err, h.alpha.err⟩

/-- Colours that are alike are blended to colours that are alike. -/
theorem C130_colours (op : BlendOp) (hop : op ∈ plainModes) {i : F32} (hi : i.fin = true ∧ 0 ≤ i.val ∧ i.val ≤ 1) {t : ℝ}
    {c o : Col F32} {d p : Col ℝ} (h : AlikeColours t c d) (h' : AlikeColours t o p) :
    AlikeColours (modeFactor op i.val * t + 1 / 2 ^ 20) (modeFunction op c o i) (modeFunction op d p (i.val : ℝ)) := by
  obtain ⟨u, v, k⟩ := h
  obtain ⟨u', v', k'⟩ := h'
  have i0 : (0 : ℝ) ≤ i.val := by exact_mod_cast hi.2.1
  have i1 : (i.val : ℝ) ≤ 1 := by exact_mod_cast hi.2.2
  obtain ⟨a, b, e, f⟩ := C130_factor op hop (exact_unitReal u) (exact_unitReal u') v v' i0 i1 k.apart k'.apart
  refine ⟨?_, plain_unit op hop v v' i0 i1, (C130_modes op hop u u' hi).move a b e f le_rfl⟩
  refine unit_close ?_ (C130_modes op hop u u' hi)
  simp only [plainModes, List.mem_cons, List.not_mem_nil, or_false] at hop
  rcases hop with rfl | rfl | rfl | rfl | rfl <;> exact new_pixel _ _ _ _

theorem nothing_alike {ε : ℝ} (h : 0 ≤ ε) :
    AlikeColours ε (⟨lit 0, lit 0, lit 0, lit 0⟩ : Col F32) (⟨lit 0, lit 0, lit 0, lit 0⟩ : Col ℝ) := by
  have z : (lit 0 : F32).fin = true ∧ (lit 0 : F32).val = 0 := by
    show (FP.ofRat b32 false 0).fin = true ∧ (FP.ofRat b32 false 0).val = 0
    decide +kernel
  have u : (lit 0 : F32).fin = true ∧ 0 ≤ (lit 0 : F32).val ∧ (lit 0 : F32).val ≤ 1 := ⟨z.1, by rw [z.2], by rw [z.2]; norm_num⟩
  have r : (0 : ℝ) ≤ lit 0 ∧ (lit 0 : ℝ) ≤ 1 := by ex_simp; norm_num
  have c : Close (lit 0 : F32) (lit 0 : ℝ) ε := ⟨z.1, by rw [z.2]; ex_simp; simpa using h⟩
  exact ⟨⟨u, u, u, u⟩, ⟨r, r, r, r⟩, ⟨c, c, c, c⟩⟩

/-- **Blending.** Pictures that are alike, of any sizes, are blended to pictures that are alike, or the sizes do not fit and
both programs stop. -/
theorem C130_blend (op : BlendOp) (hop : op ∈ plainModes) {i : F32} (hi : i.fin = true ∧ 0 ≤ i.val ∧ i.val ≤ 1) {ε : ℝ}
    {a a2 : Image F32} {b b2 : Image ℝ} (h : Alike ε a.buffer b.buffer) (h2 : Alike ε a2.buffer b2.buffer) :
    (∃ a' b', a.blend a2 op i = .ok a' ∧ b.blend b2 op (i.val : ℝ) = .ok b' ∧
      Alike (modeFactor op i.val * ε + 1 / 2 ^ 20) a'.buffer b'.buffer) ∨
    (a.blend a2 op i = .error .invalidSize ∧ b.blend b2 op (i.val : ℝ) = .error .invalidSize) := by
  obtain ⟨w, h, px, ex, s, t, k⟩ := h
  obtain ⟨w', h', px', ex', s', t', k'⟩ := h2
  have i0 : (0 : ℝ) ≤ i.val := by exact_mod_cast hi.2.1
  by_cases hv : ValidSize (max w w') (max h h')
  · left
    obtain ⟨r, e1, sr⟩ := (C36_blend_image s s' op i).1 hv
    obtain ⟨q, e2, sq⟩ := (C36_blend_image t t' op (i.val : ℝ)).1 hv
    refine ⟨Image.new_from_buffer_with_meta a r, Image.new_from_buffer_with_meta b q, ?_, ?_, _, _, _, _, sr, sq,
      fun x y hx hy => ?_⟩
    · simp only [Image.blend, e1]; rfl
    · simp only [Image.blend, e2]; rfl
    · have up : ∀ {c d}, AlikeColours ε c d → AlikeColours (modeFactor op i.val * ε + 1 / 2 ^ 20) c d := by
        intro c d ⟨u, v, k⟩
        have ε0 : 0 ≤ ε := (abs_nonneg _).trans k.c0.err
        have m : 1 ≤ modeFactor op i.val := by
          unfold modeFactor; split <;> linarith
        exact ⟨u, v, k.move (s := 0) (by simp) (by simp) (by simp) (by simp) (by nlinarith [show (0 : ℝ) ≤ 1 / 2 ^ 20 by norm_num])⟩
      by_cases c1 : x < w ∧ y < h
      · rw [if_pos c1, if_pos c1]
        by_cases c2 : x < w' ∧ y < h'
        · rw [if_pos c2, if_pos c2]
          exact C130_colours op hop hi (k x y c1.1 c1.2) (k' x y c2.1 c2.2)
        · rw [if_neg c2, if_neg c2]
          exact up (k x y c1.1 c1.2)
      · rw [if_neg c1, if_neg c1]
        by_cases c2 : x < w' ∧ y < h'
        · rw [if_pos c2, if_pos c2]
          exact up (k' x y c2.1 c2.2)
        · rw [if_neg c2, if_neg c2]
          have ε0 : 0 ≤ ε := by
            rcases lt_or_ge 0 w with hw | hw
            · exact (abs_nonneg _).trans (k 0 0 hw (by rcases s.size with ⟨_, _⟩ | ⟨_, _⟩ <;> omega)).2.2.c0.err
            · exact (abs_nonneg _).trans (k' 0 0 (by omega) (by rcases s'.size with ⟨_, _⟩ | ⟨_, _⟩ <;> omega)).2.2.c0.err
          exact up (nothing_alike ε0)
  · right
    constructor
    · simp only [Image.blend, (C36_blend_image s s' op i).2 hv]; rfl
    · simp only [Image.blend, (C36_blend_image t t' op (i.val : ℝ)).2 hv]; rfl

omit [Libm b32] [Junk] in
theorem some_largest : ∀ l : List Nat, l ≠ [] → ∃ m ∈ l, ∀ n ∈ l, n ≤ m
  | [], h => absurd rfl h
  | [a], _ => ⟨a, by simp, by simp⟩
  | a :: b :: l, _ => by
    obtain ⟨m, h1, h2⟩ := some_largest (b :: l) (by simp)
    rcases le_total a m with h | h
    · exact ⟨m, List.mem_cons_of_mem _ h1, fun n hn => (List.mem_cons.1 hn).elim (fun e => e ▸ h) (h2 n)⟩
    · exact ⟨a, List.mem_cons_self, fun n hn => (List.mem_cons.1 hn).elim (fun e => e ▸ le_rfl) fun k => (h2 n k).trans h⟩

omit [Libm b32] [Junk] in
theorem pixelOr_alike {ε : ℝ} {a : PixelBuffer (Col F32)} {b : PixelBuffer (Col ℝ)} (h : Alike ε a b) {c d}
    (hd : AlikeColours ε c d) (x y : Nat) : AlikeColours ε (pixelOr c a x y) (pixelOr d b x y) := by
  obtain ⟨w, h, px, ex, s, t, k⟩ := h
  unfold pixelOr
  rw [C03_get_pixel s, C03_get_pixel t]
  by_cases hin : x < w ∧ y < h
  · rw [if_pos hin, if_pos hin]; exact k x y hin.1 hin.2
  · rw [if_neg hin, if_neg hin]; exact hd

omit [Libm b32] [Junk] in
/-- **Composing.** Any number of pictures (at least one) that are alike, with default colours that are alike and functions
that do the same up to rounding, are composed to pictures that are alike, or the sizes do not fit and both programs stop. -/
theorem C130_compose {L η ε : ℝ} {f g} (hf : Joins L η f g) {as : List (Image F32)} {bs : List (Image ℝ)} (hne : as ≠ [])
    (h : List.Forall₂ (fun a b => Alike ε a.buffer b.buffer) as bs) {c d} (hd : AlikeColours ε c d) :
    (∃ a' b', Image.compose_slice (m := R) as c (fun x y l => .ok (f x y l)) = .ok a' ∧
      Image.compose_slice (m := R) bs d (fun x y l => .ok (g x y l)) = .ok b' ∧ Alike (L * ε + η) a'.buffer b'.buffer) ∨
    (Image.compose_slice (m := R) as c (fun x y l => .ok (f x y l)) = .error .invalidSize ∧
      Image.compose_slice (m := R) bs d (fun x y l => .ok (g x y l)) = .error .invalidSize) := by
  have same : ∀ {k : ∀ {F : Type}, Image F → Nat}, (∀ (a : Image F32) (b : Image ℝ), Alike ε a.buffer b.buffer → k a = k b) →
      as.map (fun a => k a) = bs.map (fun b => k b) := by
    intro k hk
    clear hne
    induction h with
    | nil => rfl
    | cons k _ ih => rw [List.map_cons, List.map_cons, ih, hk _ _ k]
  have wd : as.map (fun a => a.buffer.width) = bs.map (fun b => b.buffer.width) :=
    same (k := fun a => a.buffer.width) fun a b ⟨w, h, px, ex, s, t, _⟩ => s.width.trans t.width.symm
  have hg : as.map (fun a => a.buffer.height) = bs.map (fun b => b.buffer.height) :=
    same (k := fun a => a.buffer.height) fun a b ⟨w, h, px, ex, s, t, _⟩ => s.height.trans t.height.symm
  obtain ⟨W, w1, w2⟩ := some_largest (as.map fun a => a.buffer.width) (by simpa using hne)
  obtain ⟨H, h1, h2⟩ := some_largest (as.map fun a => a.buffer.height) (by simpa using hne)
  have wfa : ∀ b ∈ as.map (·.buffer), WellFormed b := by
    intro b hb
    obtain ⟨a, ha, rfl⟩ := List.mem_map.1 hb
    obtain ⟨i, hi, rfl⟩ := List.getElem_of_mem ha
    obtain ⟨w, h, px, ex, s, t, _⟩ := (List.forall₂_iff_get.1 h).2 i hi ((List.forall₂_iff_get.1 h).1 ▸ hi)
    exact s.wellFormed
  have wfb : ∀ b ∈ bs.map (·.buffer), WellFormed b := by
    intro b hb
    obtain ⟨a, ha, rfl⟩ := List.mem_map.1 hb
    obtain ⟨i, hi, rfl⟩ := List.getElem_of_mem ha
    obtain ⟨w, h, px, ex, s, t, _⟩ := (List.forall₂_iff_get.1 h).2 i ((List.forall₂_iff_get.1 h).1 ▸ hi) hi
    exact t.wellFormed
  have size : ∀ {F : Type} {l : List (Image F)} {k : PixelBuffer (Col F) → Nat} {m : Nat}, m ∈ l.map (fun a => k a.buffer) →
      (∀ n ∈ l.map (fun a => k a.buffer), n ≤ m) →
      (∃ b ∈ l.map (·.buffer), k b = m) ∧ ∀ b ∈ l.map (·.buffer), k b ≤ m := by
    intro F l k m h1 h2
    obtain ⟨a, ha, e⟩ := List.mem_map.1 h1
    refine ⟨⟨a.buffer, List.mem_map.2 ⟨a, ha, rfl⟩, e⟩, fun b hb => ?_⟩
    obtain ⟨a', ha', rfl⟩ := List.mem_map.1 hb
    exact h2 _ (List.mem_map.2 ⟨a', ha', rfl⟩)
  have ca := C38_compose c (as.map (·.buffer)) wfa W H (size w1 w2) (size h1 h2) f
  have cb := C38_compose d (bs.map (·.buffer)) wfb W H (size (wd ▸ w1) (wd ▸ w2)) (size (hg ▸ h1) (hg ▸ h2)) g
  by_cases hv : ValidSize W H
  · left
    obtain ⟨r, e1, s⟩ := ca.1 hv
    obtain ⟨q, e2, t⟩ := cb.1 hv
    cases h with
    | nil => exact absurd rfl hne
    | @cons a b as bs k ks =>
      refine ⟨Image.new_from_buffer_with_meta a r, Image.new_from_buffer_with_meta b q, ?_, ?_, W, H, _, _, s, t, fun x y _ _ => ?_⟩
      · simp only [Image.compose_slice, e1]; rfl
      · simp only [Image.compose_slice, e2]; rfl
      · refine hf x y ε _ _ ((abs_nonneg _).trans hd.2.2.c0.err) ?_
        simp only [List.forall₂_map_left_iff, List.forall₂_map_right_iff]
        exact .cons (pixelOr_alike k hd x y) (ks.imp fun a b h => pixelOr_alike h hd x y)
  · right
    constructor
    · simp only [Image.compose_slice, ca.2 hv]; rfl
    · simp only [Image.compose_slice, cb.2 hv]; rfl

/-! ## The hypotheses can be met -/

/-- Put the lighter of two pictures, at half intensity, nothing for other numbers of pictures. -/
def halfLighter {F : Type} [Scalar F] (i : F) : Nat → Nat → List (Col F) → Col F
  | _, _, [c, o] => modeFunction .Lighten c o i
  | _, _, _ => ⟨lit 0, lit 0, lit 0, lit 0⟩

theorem halfLighter_joins : Joins (3 / 2) (1 / 2 ^ 20) (halfLighter (FP.ofRat b32 false (1 / 2))) (halfLighter (1 / 2 : ℝ)) := by
  have v : (FP.ofRat b32 false (1 / 2)).val = 1 / 2 := by decide +kernel
  have fin : (FP.ofRat b32 false (1 / 2)).fin = true := by decide +kernel
  intro x y t l m t0 h
  have n : AlikeColours (3 / 2 * t + 1 / 2 ^ 20) (⟨lit 0, lit 0, lit 0, lit 0⟩ : Col F32) (⟨lit 0, lit 0, lit 0, lit 0⟩ : Col ℝ) :=
    nothing_alike (by positivity)
  cases h with
  | nil => exact n
  | cons k h =>
    cases h with
    | nil => exact n
    | cons k' h =>
      cases h with
      | nil =>
        have := C130_colours .Lighten (by decide) (i := FP.ofRat b32 false (1 / 2)) ⟨fin, by rw [v]; norm_num, by rw [v]; norm_num⟩ k k'
        rw [v] at this
        simp only [modeFactor] at this
        push_cast at this
        norm_num at this ⊢
        exact this
      | cons _ _ => exact n

end

/-- A program with two pictures: one is inverted, the other is made darker and laid over it by subtraction at half intensity,
the result is turned upside down. -/
example [Junk] : letI := nearestAll
    ∀ (a a2 : Image F32) (b b2 : Image ℝ) (a3 a4 : Image F32) (b3 b4 : Image ℝ),
      Alike (1 / 1000000) a.buffer b.buffer → Alike (1 / 1000000) a2.buffer b2.buffer →
      (a.mod_colors Rgb.invert).blend (a2.mod_colors (Rgb.with_brightness · (FP.ofRat b32 false (1 / 8)))) .Subtract
        (FP.ofRat b32 false (1 / 2)) = .ok a3 →
      (b.mod_colors Rgb.invert).blend (b2.mod_colors (Rgb.with_brightness · (1 / 8))) .Subtract (1 / 2) = .ok b3 →
      a3.flip_vertical = .ok a4 → b3.flip_vertical = .ok b4 →
      Alike (4 / 1000000) a4.buffer b4.buffer := by
  let _ := nearestAll
  intro a a2 b b2 a3 a4 b3 b4 h h2 e1 e2 e3 e4
  have v : (FP.ofRat b32 false (1 / 2)).val = 1 / 2 := by decide +kernel
  have fin : (FP.ofRat b32 false (1 / 2)).fin = true := by decide +kernel
  have w : (FP.ofRat b32 false (1 / 8)).val = 1 / 8 := by decide +kernel
  have wf : (FP.ofRat b32 false (1 / 8)).fin = true := by decide +kernel
  have s1 : SameSteps (1 / 16777216) _ _ _ := .mod_colors _ _ _ a b _ _ (.start _ a b h) (C127_colours _ _ wf wf .Lightness).1
  have s2 : SameSteps (1 / 16777216) _ _ _ := .mod_colors _ _ _ a2 b2 _ _ (.start _ a2 b2 h2) (C127_colours _ _ wf wf .Lightness).2.1
  have k1 := C127_close nearestAll_near.1 (by norm_num) nearestAll_near.2.1 (.more _ (5 / 4000000) _ _ s1 (by norm_num))
  have k2 := C127_close nearestAll_near.1 (by norm_num) nearestAll_near.2.1 (.more _ (5 / 4000000) _ _ s2 (by norm_num))
  rw [w] at k2
  push_cast at k2
  rcases C130_blend .Subtract (by decide) (i := FP.ofRat b32 false (1 / 2)) ⟨fin, by rw [v]; norm_num, by rw [v]; norm_num⟩ k1 k2 with
    ⟨a', b', f1, f2, k⟩ | ⟨f1, _⟩
  · rw [v] at f2
    push_cast at f2
    rw [e1] at f1; rw [e2] at f2
    cases f1; cases f2
    obtain ⟨a'', b'', g1, g2, k⟩ := (C127_both k).2.2.1
    rw [e3] at g1; rw [e4] at g2
    cases g1; cases g2
    refine k.more ?_
    rw [v]
    simp only [modeFactor]
    norm_num
  · rw [e1] at f1; cases f1

example [Junk] [Libm b32] (a a2 : Image F32) (b b2 : Image ℝ) (h : Alike (1 / 1000000) a.buffer b.buffer)
    (h2 : Alike (1 / 1000000) a2.buffer b2.buffer) := C130_compose halfLighter_joins (as := [a, a2]) (bs := [b, b2]) (by simp) (.cons h (.cons h2 .nil))
    (nothing_alike (by norm_num))

end D10
