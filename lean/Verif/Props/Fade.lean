import Verif.SpecFade
import Verif.Lemmas.SaturationFloat
import Verif.Lemmas.LevelFloat
import Verif.Props.Grey
import Verif.Props.HslLaws

/-!
# C133: taking away saturation
-/

namespace D10
open Spec
open Scalar (lit)

section
variable [Libm b32]

theorem midpoint32 {c : Col F32} (h : UnitCol c) : midpoint (exact c) = (((Rgb.max c).val : ℝ) + (Rgb.min c).val) / 2 := by
  obtain ⟨-, M0, M1, M2, Mc⟩ := max32 h
  obtain ⟨-, m0, m1, m2, mc⟩ := min32 h
  have Mc' : ((Rgb.max c).val : ℝ) = c.c0.val ∨ ((Rgb.max c).val : ℝ) = c.c1.val ∨ ((Rgb.max c).val : ℝ) = c.c2.val := by
    exact_mod_cast Mc
  have mc' : ((Rgb.min c).val : ℝ) = c.c0.val ∨ ((Rgb.min c).val : ℝ) = c.c1.val ∨ ((Rgb.min c).val : ℝ) = c.c2.val := by
    exact_mod_cast mc
  have a : max (c.c0.val : ℝ) (max (c.c1.val : ℝ) (c.c2.val : ℝ)) = (Rgb.max c).val := by
    refine le_antisymm (max_le M0 (max_le M1 M2)) ?_
    rcases Mc' with e | e | e <;> rw [e]
    · exact le_max_left _ _
    · exact (le_max_left _ _).trans (le_max_right _ _)
    · exact (le_max_right _ _).trans (le_max_right _ _)
  have b : min (c.c0.val : ℝ) (min (c.c1.val : ℝ) (c.c2.val : ℝ)) = (Rgb.min c).val := by
    refine le_antisymm ?_ (le_min m0 (le_min m1 m2))
    rcases mc' with e | e | e <;> rw [e]
    · exact min_le_left _ _
    · exact (min_le_right _ _).trans (min_le_left _ _)
    · exact (min_le_right _ _).trans (min_le_right _ _)
  show (max (c.c0.val : ℝ) (max (c.c1.val : ℝ) (c.c2.val : ℝ)) + min (c.c0.val : ℝ) (min (c.c1.val : ℝ) (c.c2.val : ℝ))) / 2 = _
  rw [a, b]

/-- **Taking away saturation**, with 32-bit numbers and a factor between 0 and 1: every channel keeps that part of its
distance from the lightness, up to 1/32768 (the program takes differences below that for none) and 1/100000; alpha stays
the same. -/
theorem C133_fade (c : Col F32) (h : UnitCol c) (k : F32) (hk : k.fin = true ∧ 0 ≤ k.val ∧ k.val ≤ 1) :
    CloseCol (1 / 32768 + 1 / 100000) (Rgb.with_saturation c k) (fade k.val (exact c)) ∧
    (Rgb.with_saturation c k).alpha = c.alpha := by
  obtain ⟨hM, M0, M1, M2, -⟩ := max32 h
  obtain ⟨hm, m0, m1, m2, -⟩ := min32 h
  have U0 : In01 c.c0 := h.c0
  have U1 : In01 c.c1 := h.c1
  have U2 : In01 c.c2 := h.c2
  have U3 : In01 c.alpha := h.alpha
  obtain ⟨k0, k1⟩ := In01.real hk
  have al : Close (clamp01 c.alpha) (c.alpha.val : ℝ) (1 / 32768 + 1 / 100000) := by
    rw [clamp_self32 U3]; exact ⟨U3.1, by rw [sub_self, abs_zero]; norm_num⟩
  have mid := midpoint32 h
  set M := Rgb.max c with hM'
  set m := Rgb.min c with hm'
  have part : ∀ {x : F32}, In01 x → (x.val : ℝ) ≤ M.val → (m.val : ℝ) ≤ x.val →
      0 ≤ ((M.val : ℝ) + m.val) / 2 + k.val * (x.val - (M.val + m.val) / 2) ∧
      ((M.val : ℝ) + m.val) / 2 + k.val * (x.val - (M.val + m.val) / 2) ≤ 1 ∧
      |(k.val : ℝ) * (x.val - (M.val + m.val) / 2)| ≤ k.val * (M.val - m.val) / 2 := by
    intro x hx h1 h2
    have e : |(k.val : ℝ) * (x.val - (M.val + m.val) / 2)| ≤ k.val * ((M.val - m.val) / 2) := by
      rw [abs_mul, abs_of_nonneg k0]
      exact mul_le_mul_of_nonneg_left (by rw [abs_le]; constructor <;> linarith) k0
    have e' : (k.val : ℝ) * ((M.val - m.val) / 2) ≤ (M.val - m.val) / 2 := by nlinarith
    have := hM.real
    have := hm.real
    refine ⟨?_, ?_, by linarith⟩ <;> rw [abs_le] at e <;> linarith
  have flat : ∀ {l : F32}, Close l (((M.val : ℝ) + m.val) / 2) (2 / 16777216) → (k.val : ℝ) * (M.val - m.val) ≤ 1 / 32768 →
      ∀ {x : F32}, In01 x → (x.val : ℝ) ≤ M.val → (m.val : ℝ) ≤ x.val →
      Close (clamp01 l) (((M.val : ℝ) + m.val) / 2 + k.val * (x.val - (M.val + m.val) / 2)) (1 / 32768 + 1 / 100000) := by
    intro l hl hs x hx h1 h2
    obtain ⟨p0, p1, p2⟩ := part hx h1 h2
    apply clamp_close _ p0 p1
    refine ⟨hl.fin, ?_⟩
    have := abs_le.1 hl.err
    rw [abs_le] at p2 ⊢
    constructor <;> linarith
  have fin : ∀ {R G B : F32}, Rgb.with_saturation c k = Rgb.new_with_alpha R G B c.alpha →
      Close (clamp01 R) (((M.val : ℝ) + m.val) / 2 + k.val * (c.c0.val - (M.val + m.val) / 2)) (1 / 32768 + 1 / 100000) →
      Close (clamp01 G) (((M.val : ℝ) + m.val) / 2 + k.val * (c.c1.val - (M.val + m.val) / 2)) (1 / 32768 + 1 / 100000) →
      Close (clamp01 B) (((M.val : ℝ) + m.val) / 2 + k.val * (c.c2.val - (M.val + m.val) / 2)) (1 / 32768 + 1 / 100000) →
      CloseCol (1 / 32768 + 1 / 100000) (Rgb.with_saturation c k) (fade k.val (exact c)) ∧
        (Rgb.with_saturation c k).alpha = c.alpha := by
    intro R G B e hR hG hB
    rw [e]
    unfold fade
    rw [mid]
    exact ⟨⟨hR, hG, hB, al⟩, clamp_self32 U3⟩
  by_cases hd : ((M -. m) <. EPSILON) = true
  · obtain ⟨-, hl, hg⟩ := hsl_gray h hd
    have e : Rgb.with_saturation c k = Rgb.new_with_alpha ((M +. m) /. lit 2) ((M +. m) /. lit 2) ((M +. m) /. lit 2) c.alpha := by
      have : Rgb.to_hsl c = ⟨lit 0, lit 0, (M +. m) /. lit 2, c.alpha⟩ := by
        unfold Rgb.to_hsl
        simp only
        rw [← hM', ← hm', if_pos hd]
      unfold Rgb.with_saturation Hsl.to_rgb
      rw [this]
      simp only
      rw [zero_mul32 hk.1, if_pos rfl]
    have small : (k.val : ℝ) * (M.val - m.val) ≤ 1 / 32768 := by nlinarith
    exact fin e (flat hl small U0 M0 m0) (flat hl small U1 M1 m1) (flat hl small U2 M2 m2)
  · obtain ⟨hue, H, e, H0, H1, t1, t2, t3, w1, w2, w3⟩ := hue_parts h hd
    have hd1 : 1 / 32769 ≤ (M.val : ℝ) - m.val := by
      have dl := NearF.sub_rel hM hm
      rw [below_eps hM hm, not_lt] at hd
      have := abs_le.1 dl.close.err
      rw [abs_of_nonneg (by linarith)] at this
      linarith
    obtain ⟨z1, hl, hq, hp⟩ := q_kept hM hm hk hd1
    rw [← hM', ← hm'] at e w1 w2 w3
    set z : F32 := clamp01 (sat32 M m *. k) with hz
    have hsat : Rgb.with_saturation c k = Hsl.to_rgb ⟨hue, z, (M +. m) /. lit 2, c.alpha⟩ := by
      unfold Rgb.with_saturation
      rw [e]
    by_cases hz0 : (z ==. lit 0) = true
    · have small := (z1 hz0).trans (show (10 / 16777216 : ℝ) ≤ 1 / 32768 by norm_num)
      refine fin (R := (M +. m) /. lit 2) (G := (M +. m) /. lit 2) (B := (M +. m) /. lit 2) ?_ (flat hl.close small U0 M0 m0)
        (flat hl.close small U1 M1 m1) (flat hl.close small U2 M2 m2)
      rw [hsat]
      unfold Hsl.to_rgb
      simp only
      rw [if_pos hz0]
    · set q := q32 ((M +. m) /. lit 2) z with hq'
      set p := lit 2 *. ((M +. m) /. lit 2) -. q with hp'
      have e2 : Rgb.with_saturation c k = Rgb.new_with_alpha (Hsl.hue2rgb p q (hue +. lit 1 /. lit 3)) (Hsl.hue2rgb p q hue)
          (Hsl.hue2rgb p q (hue -. lit 1 /. lit 3)) c.alpha := by
        rw [hsat]
        unfold Hsl.to_rgb
        simp only
        rw [if_neg hz0]
        rfl
      have := hM.real
      have := hm.real
      have kD0 : 0 ≤ (k.val : ℝ) * (M.val - m.val) := mul_nonneg k0 (by linarith)
      have kD1 : (k.val : ℝ) * (M.val - m.val) ≤ M.val - m.val := by nlinarith
      have r := fun {t : F32} {T : ℝ} (ht : Close t T (4 / 16777216)) => hue2rgb_near (t := t) (T := T)
        (P := ((M.val : ℝ) + m.val) / 2 - k.val * (M.val - m.val) / 2)
        (Q := ((M.val : ℝ) + m.val) / 2 + k.val * (M.val - m.val) / 2) (by linarith) (by linarith) (by linarith)
        (e := 28 / 16777216) (by norm_num) hp (hq.mono (by norm_num) le_rfl) ht (by norm_num)
      have go : ∀ {x y : F32} {u : ℝ}, In01 x → (x.val : ℝ) ≤ M.val → (m.val : ℝ) ≤ x.val →
          Close y (((M.val : ℝ) + m.val) / 2 - k.val * (M.val - m.val) / 2 +
            (((M.val : ℝ) + m.val) / 2 + k.val * (M.val - m.val) / 2 - (((M.val : ℝ) + m.val) / 2 - k.val * (M.val - m.val) / 2)) * u)
            (4 * (28 / 16777216) + 6 * (4 / 16777216) + 22 / 16777216) →
          (m.val + (M.val - m.val : ℝ) * u = x.val ∨
            (Scalar.abs (M -. x) <. EPSILON) = true ∧ m.val + (M.val - m.val : ℝ) * u = M.val) →
          Close (clamp01 y) (((M.val : ℝ) + m.val) / 2 + k.val * (x.val - (M.val + m.val) / 2)) (1 / 32768 + 1 / 100000) := by
        intro x y u hx h1 h2 hy hu
        obtain ⟨p0, p1, -⟩ := part hx h1 h2
        apply clamp_close _ p0 p1
        refine ⟨hy.fin, ?_⟩
        have he := abs_le.1 hy.err
        have key : ∀ v : ℝ, m.val + (M.val - m.val : ℝ) * u = v →
            ((M.val : ℝ) + m.val) / 2 - k.val * (M.val - m.val) / 2 +
            (((M.val : ℝ) + m.val) / 2 + k.val * (M.val - m.val) / 2 - (((M.val : ℝ) + m.val) / 2 - k.val * (M.val - m.val) / 2)) * u =
            ((M.val : ℝ) + m.val) / 2 + k.val * (v - (M.val + m.val) / 2) := by
          intro v hv; rw [← hv]; ring
        rcases hu with hu | ⟨hn, hu⟩
        · rw [key _ hu] at he
          rw [abs_le]
          norm_num at he ⊢
          constructor <;> linarith
        · rw [key _ hu] at he
          have e := abs_sub32 hM hx h1
          rw [lt_real e.1 eps32.1, eps32.2, e.2] at hn
          have d : ((Rgb.max c).val : ℝ) - x.val ≤ 1 / 32768 := by
            by_contra hc
            have := not_near hM hx (not_le.1 hc).le
            linarith
          rw [← hM'] at d
          have f1 : 0 ≤ (k.val : ℝ) * (M.val - x.val) := mul_nonneg k0 (by linarith)
          have f2 : (k.val : ℝ) * (M.val - x.val) ≤ 1 / 32768 := by nlinarith
          have f3 : ((M.val : ℝ) + m.val) / 2 + k.val * (M.val - (M.val + m.val) / 2) =
            ((M.val : ℝ) + m.val) / 2 + k.val * (x.val - (M.val + m.val) / 2) + k.val * (M.val - x.val) := by ring
          rw [f3] at he
          rw [abs_le]
          norm_num at he f2 ⊢
          constructor <;> linarith
      exact fin e2 (go U0 M0 m0 (r t1 (by linarith) (by linarith)) w1) (go U1 M1 m1 (r t2 (by linarith) (by linarith)) w2)
        (go U2 M2 m2 (r t3 (by linarith) (by linarith)) (.inl w3))

end

section
variable [Junk]

/-- The same in exact arithmetic, where only the 1/32768 remains. -/
theorem C133_exact (c : Col ℝ) (h : Spec.Unit c) (k : ℝ) (k0 : 0 ≤ k) (k1 : k ≤ 1) :
    Spec.Apart (k / 32768) (Rgb.with_saturation c k) (fade k c) := by
  obtain ⟨h0, h1, s0, s1, l0, l1, lm, ea⟩ := C28_hsl_range c h
  have ks0 : 0 ≤ k * (to_hsl .rgb c).c1 := mul_nonneg k0 s0
  have ks1 : k * (to_hsl .rgb c).c1 ≤ 1 := mul_le_one₀ k1 s0 s1
  have e : Rgb.with_saturation c k = Hsl.to_rgb ⟨(to_hsl .rgb c).c0, k * (to_hsl .rgb c).c1, (to_hsl .rgb c).c2, c.alpha⟩ := by
    rw [(C83_hsl c k 1 one_pos).1]
    unfold viaHsl
    simp only
    rw [limit_mul ks0 ks1]; rfl
  rw [Exact.hsl_to_rgb h0 h1.le ks0 ks1 l0 l1 h.a0 h.a1] at e
  have n := C28_hsl_round_trip c h
  rw [Exact.col_eq] at n
  have e' : to_rgb .hsl (to_hsl .rgb c) = Hsl.to_rgb ⟨(to_hsl .rgb c).c0, (to_hsl .rgb c).c1, (to_hsl .rgb c).c2, c.alpha⟩ := by
    rw [← ea]; rfl
  rw [e', Exact.hsl_to_rgb h0 h1.le s0 s1 l0 l1 h.a0 h.a1] at n
  rw [e]
  have go : ∀ {t v : ℝ}, |hslChannel (to_hsl .rgb c).c1 (to_hsl .rgb c).c2 t - v| ≤ 1 / 32768 →
      |hslChannel (k * (to_hsl .rgb c).c1) (to_hsl .rgb c).c2 t - (midpoint c + k * (v - midpoint c))| ≤ k / 32768 := by
    intro t v hv
    have : hslChannel (k * (to_hsl .rgb c).c1) (to_hsl .rgb c).c2 t - (midpoint c + k * (v - midpoint c)) =
        k * (hslChannel (to_hsl .rgb c).c1 (to_hsl .rgb c).c2 t - v) := by
      rw [show midpoint c = (to_hsl .rgb c).c2 from lm.symm]
      unfold hslChannel span
      ring
    rw [this, abs_mul, abs_of_nonneg k0]
    have := mul_le_mul_of_nonneg_left hv k0
    linarith
  exact ⟨go n.1, go n.2.1, go n.2.2.1, rfl⟩

omit [Junk] in
theorem midpoint_lip {c d : Col ℝ} {t : ℝ} (h0 : |c.c0 - d.c0| ≤ t) (h1 : |c.c1 - d.c1| ≤ t) (h2 : |c.c2 - d.c2| ≤ t) :
    |midpoint c - midpoint d| ≤ t := by
  rw [abs_le] at *
  have a : max c.c0 (max c.c1 c.c2) ≤ max d.c0 (max d.c1 d.c2) + t :=
    max_le (by linarith [le_max_left d.c0 (max d.c1 d.c2)]) (max_le
      (by linarith [(le_max_left d.c1 d.c2).trans (le_max_right d.c0 (max d.c1 d.c2))])
      (by linarith [(le_max_right d.c1 d.c2).trans (le_max_right d.c0 (max d.c1 d.c2))]))
  have a' : max d.c0 (max d.c1 d.c2) ≤ max c.c0 (max c.c1 c.c2) + t :=
    max_le (by linarith [le_max_left c.c0 (max c.c1 c.c2)]) (max_le
      (by linarith [(le_max_left c.c1 c.c2).trans (le_max_right c.c0 (max c.c1 c.c2))])
      (by linarith [(le_max_right c.c1 c.c2).trans (le_max_right c.c0 (max c.c1 c.c2))]))
  have b : min d.c0 (min d.c1 d.c2) - t ≤ min c.c0 (min c.c1 c.c2) :=
    le_min (by linarith [min_le_left d.c0 (min d.c1 d.c2)]) (le_min
      (by linarith [(min_le_right d.c0 (min d.c1 d.c2)).trans (min_le_left d.c1 d.c2)])
      (by linarith [(min_le_right d.c0 (min d.c1 d.c2)).trans (min_le_right d.c1 d.c2)]))
  have b' : min c.c0 (min c.c1 c.c2) - t ≤ min d.c0 (min d.c1 d.c2) :=
    le_min (by linarith [min_le_left c.c0 (min c.c1 c.c2)]) (le_min
      (by linarith [(min_le_right c.c0 (min c.c1 c.c2)).trans (min_le_left c.c1 c.c2)])
      (by linarith [(min_le_right c.c0 (min c.c1 c.c2)).trans (min_le_right c.c1 c.c2)]))
  unfold Spec.midpoint
  constructor <;> linarith

variable [Libm b32]

/-- **Both programs.** Taking away saturation does not enlarge differences, apart from 2/32768 + 1/100000. -/
theorem C133_follows (k : F32) (hk : k.fin = true ∧ 0 ≤ k.val ∧ k.val ≤ 1) :
    Follows 1 (2 / 32768 + 1 / 100000) (Rgb.with_saturation · k) (Rgb.with_saturation · k.val) := by
  obtain ⟨k0, k1⟩ := In01.real hk
  have unit : ∀ {d : Col ℝ}, UnitReal d → Spec.Unit d := fun hd =>
    ⟨hd.c0.1, hd.c0.2, hd.c1.1, hd.c1.2, hd.c2.1, hd.c2.2, hd.alpha.1, hd.alpha.2⟩
  refine ⟨fun c hc => ?_, fun d hd => ?_, fun t c d hc hd e => ?_⟩
  · have f := (C133_fade c hc k hk).1
    have : ∃ R G B, Rgb.with_saturation c k = Rgb.new_with_alpha R G B c.alpha := by
      unfold Rgb.with_saturation Hsl.to_rgb
      simp only
      split <;> exact ⟨_, _, _, rfl⟩
    obtain ⟨R, G, B, e⟩ := this
    simp only [e] at f ⊢
    exact ⟨clamped_unit f.c0.fin, clamped_unit f.c1.fin, clamped_unit f.c2.fin, clamped_unit f.alpha.fin⟩
  · obtain ⟨h0, h1, s0, s1, l0, l1, lm, ea⟩ := C28_hsl_range d (unit hd)
    have e := (C83_hsl d (k.val : ℝ) 1 one_pos).1
    unfold viaHsl at e
    simp only at e
    obtain ⟨z0, z1⟩ := limit_unit ((k.val : ℝ) * (to_hsl .rgb d).c1)
    have e2 : Rgb.with_saturation d (k.val : ℝ) = _ := e.trans (Exact.hsl_to_rgb h0 h1.le z0 z1 l0 l1 hd.alpha.1 hd.alpha.2)
    rw [e2]
    exact ⟨hslChannel_range z0 z1 l0 l1, hslChannel_range z0 z1 l0 l1, hslChannel_range z0 z1 l0 l1, hd.alpha⟩
  · have f := (C133_fade c hc k hk).1
    obtain ⟨g0, g1, g2, g3⟩ := C133_exact d (unit hd) k.val k0 k1
    have ml := midpoint_lip (c := exact c) (d := d) e.c0.err e.c1.err e.c2.err
    have go : ∀ {x : F32} {y v w : ℝ}, Close x (midpoint (exact c) + k.val * (v - midpoint (exact c))) (1 / 32768 + 1 / 100000) →
        |y - (midpoint d + k.val * (w - midpoint d))| ≤ k.val / 32768 → |v - w| ≤ t →
        Close x y (1 * t + (2 / 32768 + 1 / 100000)) := by
      intro x y v w hx hy hvw
      refine ⟨hx.fin, ?_⟩
      have a := hx.err
      have b : |(midpoint (exact c) + k.val * (v - midpoint (exact c))) - (midpoint d + k.val * (w - midpoint d))| ≤ t := by
        have : (midpoint (exact c) + k.val * (v - midpoint (exact c))) - (midpoint d + k.val * (w - midpoint d)) =
          (1 - k.val) * (midpoint (exact c) - midpoint d) + k.val * (v - w) := by ring
        rw [this]
        refine (abs_add_le _ _).trans ?_
        rw [abs_mul, abs_mul, abs_of_nonneg k0, abs_of_nonneg (by linarith : 0 ≤ 1 - (k.val : ℝ))]
        have := mul_le_mul_of_nonneg_left ml (by linarith : 0 ≤ 1 - (k.val : ℝ))
        have := mul_le_mul_of_nonneg_left hvw k0
        linarith
      rw [abs_le] at a b hy ⊢
      constructor <;> linarith
    refine ⟨go f.c0 g0 e.c0.err, go f.c1 g1 e.c1.err, go f.c2 g2 e.c2.err, f.alpha.fin, ?_⟩
    have t0 := (abs_nonneg _).trans e.alpha.err
    show |((Rgb.with_saturation c k).alpha.val : ℝ) - (Rgb.with_saturation d (k.val : ℝ)).alpha| ≤ _
    rw [(C133_fade c hc k hk).2, g3, show (fade (k.val : ℝ) d).alpha = d.alpha from rfl]
    exact e.alpha.err.trans (by linarith)

end

/-! ## The hypotheses can be met -/

/-- Taking away half of the saturation of pure red leads to (3/4, 1/4, 1/4). -/
example : fade (1 / 2) ⟨1, 0, 0, 1⟩ = ⟨3 / 4, 1 / 4, 1 / 4, 1⟩ := by
  unfold fade Spec.midpoint
  simp [eachChannel]
  norm_num

/-- A colour and a factor as the theorems ask for. -/
example : UnitCol (⟨.ofRat b32 false 1, .ofRat b32 false (1 / 2), .ofRat b32 false 0, .ofRat b32 false 1⟩ : Col F32) ∧
    (FP.ofRat b32 false (1 / 2)).fin = true ∧ 0 ≤ (FP.ofRat b32 false (1 / 2)).val ∧ (FP.ofRat b32 false (1 / 2)).val ≤ 1 := by
  refine ⟨⟨?_, ?_, ?_, ?_⟩, ?_⟩ <;> decide +kernel

end D10
