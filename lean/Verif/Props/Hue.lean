import Verif.SpecHue
import Verif.Lemmas.HsvTrip
import Verif.Lemmas.HueMove
import Verif.Props.Fade

/-!
# C134: turning the hue
-/

namespace D10
open Spec
open Scalar (lit)

theorem shareAt_turn (t : ℝ) : shareAt t = turn t := rfl

section
variable [Libm b32]

theorem darkest32 {c : Col F32} (h : UnitCol c) : darkest (exact c) = (Rgb.min c).val := by
  obtain ⟨-, m0, m1, m2, mc⟩ := min32 h
  have mc' : ((Rgb.min c).val : ℝ) = c.c0.val ∨ ((Rgb.min c).val : ℝ) = c.c1.val ∨ ((Rgb.min c).val : ℝ) = c.c2.val := by
    exact_mod_cast mc
  refine le_antisymm ?_ (le_min m0 (le_min m1 m2))
  unfold darkest
  rcases mc' with e | e | e <;> rw [e]
  · exact min_le_left _ _
  · exact (min_le_right _ _).trans (min_le_left _ _)
  · exact (min_le_right _ _).trans (min_le_right _ _)

theorem brightest32 {c : Col F32} (h : UnitCol c) : brightest (exact c) = (Rgb.max c).val := by
  obtain ⟨-, M0, M1, M2, Mc⟩ := max32 h
  have Mc' : ((Rgb.max c).val : ℝ) = c.c0.val ∨ ((Rgb.max c).val : ℝ) = c.c1.val ∨ ((Rgb.max c).val : ℝ) = c.c2.val := by
    exact_mod_cast Mc
  refine le_antisymm (max_le M0 (max_le M1 M2)) ?_
  unfold brightest
  rcases Mc' with e | e | e <;> rw [e]
  · exact le_max_left _ _
  · exact (le_max_left _ _).trans (le_max_right _ _)
  · exact (le_max_right _ _).trans (le_max_right _ _)

/-- The turned hue is within 9/2^24 of a hue between 0 and 1, up to a thousandth, that is the exact one plus whole turns. -/
theorem rotated32 {hue a : F32} {H : ℝ} (hh : Close hue H (4 / 16777216)) (H0 : 0 ≤ H) (H1 : H ≤ 1)
    (ha : a.fin = true) (a0 : -360 ≤ a.val) (a1 : a.val ≤ 360) :
    ∃ n : ℤ, NearF (Rgb.rotated_hue hue a) (H + a.val / 360 + n) (9 / 16777216) 1.001 ∧
      -(1 / 1000) ≤ H + a.val / 360 + n := by
  have A0 : (-360 : ℝ) ≤ a.val := by exact_mod_cast a0
  have A1 : (a.val : ℝ) ≤ 360 := by exact_mod_cast a1
  have na : NearF a a.val 0 360 := NearF.of_fin ha (abs_le.2 ⟨A0, A1⟩)
  have n360 : NearF (lit 360 : F32) 360 0 360 := lit_nat 360 360 (by norm_num) (by norm_num)
  have r := na.div 0 (by norm_num) n360 (m := 360) (by norm_num) (by norm_num) (by norm_num)
  have nh : NearF hue H (4 / 16777216) 1 := ⟨hh, abs_le.2 ⟨by linarith, H1⟩⟩
  have t := nh.add 2 (by norm_num) r (by norm_num)
  have te := abs_le.1 t.close.err
  norm_num at te
  have l1 := NearF.one
  have v1 : ((lit 1 : F32).val : ℝ) = 1 := by
    have := abs_nonpos_iff.1 l1.close.err
    linarith
  have l0 : (lit 0 : F32).fin = true ∧ ((lit 0 : F32).val : ℝ) = 0 :=
    ⟨FP.lit0.1, by rw [show (lit 0 : F32).val = 0 from FP.lit0.2]; norm_num⟩
  unfold Rgb.rotated_hue
  simp only
  split_ifs with c1 c2
  · rw [le_real l1.close.fin t.close.fin, v1] at c1
    refine ⟨-1, ?_, by push_cast; linarith⟩
    have := t.sub' (C := 1.001) 1 (by norm_num) l1 (by rw [abs_le]; constructor <;> linarith) (by norm_num)
    have e : H + (a.val : ℝ) / 360 + ((-1 : ℤ) : ℝ) = H + a.val / 360 - 1 := by push_cast; ring
    rw [e]
    exact this.mono (by norm_num) le_rfl
  · rw [lt_real t.close.fin l0.1, l0.2] at c2
    refine ⟨1, ?_, by push_cast; linarith⟩
    have t' : NearF (hue +. a /. lit 360) (H + a.val / 360) _ 1.001 := ⟨t.close, by rw [abs_le]; constructor <;> linarith⟩
    have := t'.add 2 (by norm_num) l1 (by norm_num)
    push_cast
    refine ⟨(this.mono (by norm_num) le_rfl).close, by rw [abs_le]; constructor <;> linarith⟩
  · rw [le_real l1.close.fin t.close.fin, v1, not_le] at c1
    rw [lt_real t.close.fin l0.1, l0.2, not_lt] at c2
    refine ⟨0, ?_, by push_cast; linarith⟩
    push_cast
    rw [add_zero]
    refine ⟨(t.mono (by norm_num) le_rfl).close, by rw [abs_le]; constructor <;> linarith⟩

/-- **Turning the hue**, with 32-bit numbers, by up to one turn: the colour lies, up to 1/32768, on the wheel between its
darkest and its brightest channel at some hue `t`, and the result lies there, up to 1/32768, at the hue that is `a` degrees
further. Alpha stays the same. -/
theorem C134_turn (c : Col F32) (h : UnitCol c) (a : F32) (ha : a.fin = true) (a0 : -360 ≤ a.val) (a1 : a.val ≤ 360) :
    ∃ t : ℝ, 0 ≤ t ∧ t ≤ 1 ∧
      CloseCol (1 / 32768) c (onWheel (darkest (exact c)) (brightest (exact c)) t c.alpha.val) ∧
      CloseCol (1 / 32768) (Rgb.with_hue_rotate c a)
        (onWheel (darkest (exact c)) (brightest (exact c)) (t + a.val / 360) c.alpha.val) ∧
      (Rgb.with_hue_rotate c a).alpha = c.alpha := by
  obtain ⟨hM, M0, M1, M2, -⟩ := max32 h
  obtain ⟨hm, m0, m1, m2, -⟩ := min32 h
  have U0 : In01 c.c0 := h.c0
  have U1 : In01 c.c1 := h.c1
  have U2 : In01 c.c2 := h.c2
  have U3 : In01 c.alpha := h.alpha
  have al0 : Close c.alpha (c.alpha.val : ℝ) (1 / 32768) := ⟨U3.1, by rw [sub_self, abs_zero]; norm_num⟩
  have al : Close (clamp01 c.alpha) (c.alpha.val : ℝ) (1 / 32768) := by rw [clamp_self32 U3]; exact al0
  rw [darkest32 h, brightest32 h]
  set M := Rgb.max c with hM'
  set m := Rgb.min c with hm'
  have Mr := hM.real
  have mr := hm.real
  have mM : (m.val : ℝ) ≤ M.val := m0.trans M0
  have on : ∀ u : ℝ, (m.val : ℝ) ≤ m.val + (M.val - m.val) * shareAt u ∧ m.val + (M.val - m.val) * shareAt u ≤ (M.val : ℝ) := by
    intro u
    obtain ⟨s0, s1⟩ := turn_range u
    rw [shareAt_turn]
    constructor <;> nlinarith
  by_cases hd : ((M -. m) <. EPSILON) = true
  · obtain ⟨hg, hl, hs⟩ := hsl_gray h hd
    have e : Rgb.with_hue_rotate c a = Rgb.new_with_alpha ((M +. m) /. lit 2) ((M +. m) /. lit 2) ((M +. m) /. lit 2) c.alpha := by
      have e1 : Rgb.to_hsl c = ⟨lit 0, lit 0, (M +. m) /. lit 2, c.alpha⟩ := by
        unfold Rgb.to_hsl
        simp only
        rw [← hM', ← hm', if_pos hd]
      rw [← hg]
      unfold Rgb.with_hue_rotate Hsl.to_rgb
      rw [e1]
      simp only
      have z : ((lit 0 : F32) ==. lit 0) = true := by
        show FP.eq (FP.ofRat b32 false 0) (FP.ofRat b32 false 0) = true
        rw [FP.eq_fin FP.lit0.1 FP.lit0.1, decide_eq_true rfl]
      rw [if_pos z, if_pos z]
    have he := abs_le.1 hl.err
    have go0 : ∀ {x : F32} (u : ℝ), In01 x → (x.val : ℝ) ≤ M.val → (m.val : ℝ) ≤ x.val →
        Close x (m.val + (M.val - m.val) * shareAt u) (1 / 32768) := by
      intro x u hx h1 h2
      obtain ⟨o1, o2⟩ := on u
      exact ⟨hx.1, by rw [abs_le]; constructor <;> linarith⟩
    have go : ∀ u : ℝ, Close (clamp01 ((M +. m) /. lit 2)) (m.val + (M.val - m.val) * shareAt u) (1 / 32768) := by
      intro u
      obtain ⟨o1, o2⟩ := on u
      apply clamp_close _ (by linarith) (by linarith)
      exact ⟨hl.fin, by rw [abs_le]; constructor <;> linarith⟩
    refine ⟨0, le_rfl, zero_le_one, ⟨go0 _ U0 M0 m0, go0 _ U1 M1 m1, go0 _ U2 M2 m2, al0⟩, ?_, ?_⟩
    · rw [e]; exact ⟨go _, go _, go _, al⟩
    · rw [e]; exact clamp_self32 U3
  · obtain ⟨hue, H, e, H0, H1, -, t2, -, w1, w2, w3⟩ := hue_parts h hd
    have hd1 : 1 / 32769 ≤ (M.val : ℝ) - m.val := by
      have dl := NearF.sub_rel hM hm
      rw [below_eps hM hm, not_lt] at hd
      have := abs_le.1 dl.close.err
      rw [abs_of_nonneg (by linarith)] at this
      linarith
    obtain ⟨z0, hq, hp⟩ := q_near hM hm hd1
    rw [← hM', ← hm'] at e w1 w2 w3
    obtain ⟨n, hn, T0⟩ := rotated32 t2 H0 H1 ha a0 a1
    have T1 := (abs_le.1 hn.le).2
    set hue' := Rgb.rotated_hue hue a with hhue
    set q := q32 ((M +. m) /. lit 2) (sat32 M m) with hq'
    set p := lit 2 *. ((M +. m) /. lit 2) -. q with hp'
    have e2 : Rgb.with_hue_rotate c a = Rgb.new_with_alpha (Hsl.hue2rgb p q (hue' +. lit 1 /. lit 3)) (Hsl.hue2rgb p q hue')
        (Hsl.hue2rgb p q (hue' -. lit 1 /. lit 3)) c.alpha := by
      unfold Rgb.with_hue_rotate
      rw [e]
      unfold Hsl.to_rgb
      simp only
      rw [if_neg (by rw [z0]; simp)]
      rfl
    have third := NearF.one.div 0 (by norm_num) NearF.three (m := 3) (by norm_num) (by norm_num) (by norm_num)
    have up := (hn.add 1 (by norm_num) third (by norm_num)).mono (d := 12 / 16777216) (by norm_num) le_rfl
    have dn := (hn.sub 1 (by norm_num) third (by norm_num)).mono (d := 12 / 16777216) (by norm_num) le_rfl
    have r := fun {t : F32} {T : ℝ} (ht : Close t T (12 / 16777216)) => hue2rgb_near (t := t) (T := T)
      (P := (m.val : ℝ)) (Q := (M.val : ℝ)) (by linarith) (by linarith) (by linarith)
      (e := 25 / 16777216) (by norm_num) hp (hq.mono (by norm_num) le_rfl) ht (by norm_num)
    have go0 : ∀ {x : F32} {u : ℝ}, In01 x → (x.val : ℝ) ≤ M.val → -1 ≤ u → u < 2 →
        (m.val + (M.val - m.val : ℝ) * wheel u = x.val ∨
          (Scalar.abs (M -. x) <. EPSILON) = true ∧ m.val + (M.val - m.val : ℝ) * wheel u = M.val) →
        Close x (m.val + (M.val - m.val) * shareAt u) (1 / 32768) := by
      intro x u hx h1 u0 u1 hu
      rw [shareAt_turn, turn_wheel u0 u1]
      refine ⟨hx.1, ?_⟩
      rcases hu with hu | ⟨hn, hu⟩
      · rw [hu, sub_self, abs_zero]; norm_num
      · rw [hu]
        have e := abs_sub32 hM hx h1
        rw [lt_real e.1 eps32.1, eps32.2, e.2] at hn
        have d : (M.val : ℝ) - x.val ≤ 1 / 32768 := by
          by_contra hc
          have := not_near hM hx (not_le.1 hc).le
          linarith
        rw [abs_le]; constructor <;> linarith
    have go : ∀ {y : F32} {T u : ℝ}, -1 ≤ T → T < 2 → T = u + n → Close y (m.val + (M.val - m.val) * wheel T)
          (4 * (25 / 16777216) + 6 * (12 / 16777216) + 22 / 16777216) →
        Close (clamp01 y) (m.val + (M.val - m.val) * shareAt u) (1 / 32768) := by
      intro y T u u0 u1 hT hy
      obtain ⟨o1, o2⟩ := on u
      apply clamp_close _ (by linarith) (by linarith)
      rw [← turn_wheel u0 u1, hT, turn_add_int] at hy
      rw [shareAt_turn]
      exact ⟨hy.fin, hy.err.trans (by norm_num)⟩
    refine ⟨H, H0, H1, ⟨go0 U0 M0 (by linarith) (by linarith) w1, go0 U1 M1 (by linarith) (by linarith) w2,
      go0 U2 M2 (by linarith) (by linarith) (Or.inl w3), al0⟩, ?_, ?_⟩
    · rw [e2]
      refine ⟨go (T := H + a.val / 360 + n + 1 / 3) (by linarith) (by norm_num at T1 ⊢; linarith) (by ring) (r up.close (by linarith) (by norm_num at T1 ⊢; linarith)),
        go (T := H + a.val / 360 + n) (by linarith) (by norm_num at T1 ⊢; linarith) (by ring) (r (hn.mono (by norm_num) le_rfl).close (by linarith) (by norm_num at T1 ⊢; linarith)),
        go (T := H + a.val / 360 + n - 1 / 3) (by linarith) (by norm_num at T1 ⊢; linarith) (by ring) (r dn.close (by linarith) (by norm_num at T1 ⊢; linarith)), al⟩
    · rw [e2]; exact clamp_self32 U3

end

section
variable [Junk]

theorem hsl_span {c : Col ℝ} (h : Spec.Unit c) :
    brightest c - darkest c < 1 / 32768 ∧ (to_hsl .rgb c).c1 = 0 ∨
    span (to_hsl .rgb c).c1 (to_hsl .rgb c).c2 = brightest c - darkest c := by
  obtain ⟨hm0, hM1, m1, m2, m3, M1, M2, M3⟩ := unit_minmax h
  unfold brightest darkest
  by_cases hd : max c.c0 (max c.c1 c.c2) - min c.c0 (min c.c1 c.c2) < 1 / 32768
  · left
    refine ⟨hd, ?_⟩
    show (Rgb.to_hsl c).c1 = 0
    rw [Exact.to_hsl_gray h hd]
  · right
    have hd := not_lt.1 hd
    show span (Rgb.to_hsl c).c1 (Rgb.to_hsl c).c2 = _
    rw [Exact.to_hsl_color h rfl rfl hd]
    simp only
    unfold span
    generalize max c.c0 (max c.c1 c.c2) = M at *
    generalize min c.c0 (min c.c1 c.c2) = m at *
    split
    · rw [abs_of_nonneg (by linarith), show 1 - (2 * ((M + m) / 2) - 1) = 2 - M - m by ring,
        div_mul_cancel₀ _ (by linarith)]
    · rw [abs_of_nonpos (by linarith), show 1 - -(2 * ((M + m) / 2) - 1) = M + m by ring,
        div_mul_cancel₀ _ (by linarith)]

/-- The same in exact arithmetic. -/
theorem C134_exact (c : Col ℝ) (h : Spec.Unit c) (a : ℝ) (a0 : -360 ≤ a) (a1 : a ≤ 360) :
    ∃ t : ℝ, 0 ≤ t ∧ t ≤ 1 ∧
      Spec.Apart (1 / 32768) c (onWheel (darkest c) (brightest c) t c.alpha) ∧
      Spec.Apart (1 / 32768) (Rgb.with_hue_rotate c a) (onWheel (darkest c) (brightest c) (t + a / 360) c.alpha) := by
  obtain ⟨h0, h1, s0, s1, l0, l1, lm, ea⟩ := C28_hsl_range c h
  have n := C28_hsl_round_trip c h
  rw [Exact.col_eq] at n
  have e' : to_rgb .hsl (to_hsl .rgb c) = Hsl.to_rgb ⟨(to_hsl .rgb c).c0, (to_hsl .rgb c).c1, (to_hsl .rgb c).c2, c.alpha⟩ := by
    rw [← ea]; rfl
  rw [e', Exact.hsl_to_rgb h0 h1.le s0 s1 l0 l1 h.a0 h.a1] at n
  have f0 := Int.fract_nonneg ((to_hsl .rgb c).c0 + a / 360)
  have f1 := (Int.fract_lt_one ((to_hsl .rgb c).c0 + a / 360)).le
  have e : Rgb.with_hue_rotate c a = Hsl.to_rgb ⟨Int.fract ((to_hsl .rgb c).c0 + a / 360), (to_hsl .rgb c).c1, (to_hsl .rgb c).c2, c.alpha⟩ := by
    rw [C71_rotation c h a a0 a1]; rfl
  rw [Exact.hsl_to_rgb f0 f1 s0 s1 l0 l1 h.a0 h.a1] at e
  rw [e]
  have lm' : (to_hsl .rgb c).c2 = (brightest c + darkest c) / 2 := lm
  refine ⟨(to_hsl .rgb c).c0, h0, h1.le, ?_⟩
  have fa : ∀ k : ℝ, turn (Int.fract ((to_hsl .rgb c).c0 + a / 360) + k) = turn ((to_hsl .rgb c).c0 + a / 360 + k) :=
    fun k => turn_fract_add _ k
  have f0' := fa 0
  have fm := fa (-(1 / 3))
  rw [add_zero, add_zero] at f0'
  rw [← sub_eq_add_neg, ← sub_eq_add_neg] at fm
  obtain ⟨hm0, hM1, m1, m2, m3, M1, M2, M3⟩ := unit_minmax h
  rw [show min c.c0 (min c.c1 c.c2) = darkest c from rfl] at hm0 m1 m2 m3
  rw [show max c.c0 (max c.c1 c.c2) = brightest c from rfl] at hM1 M1 M2 M3
  rcases hsl_span h with ⟨hd, hs⟩ | hs
  · have on : ∀ u : ℝ, darkest c ≤ darkest c + (brightest c - darkest c) * shareAt u ∧
        darkest c + (brightest c - darkest c) * shareAt u ≤ brightest c := by
      intro u
      obtain ⟨t0, t1⟩ := turn_range u
      rw [shareAt_turn]
      constructor <;> nlinarith
    have go : ∀ {x : ℝ} (u : ℝ), darkest c ≤ x → x ≤ brightest c →
        |x - (darkest c + (brightest c - darkest c) * shareAt u)| ≤ 1 / 32768 := by
      intro x u x0 x1
      obtain ⟨o1, o2⟩ := on u
      rw [abs_le]; constructor <;> linarith
    have gray : ∀ u : ℝ, hslChannel (to_hsl .rgb c).c1 (to_hsl .rgb c).c2 u = (brightest c + darkest c) / 2 := by
      intro u
      unfold hslChannel span
      rw [hs, lm']; ring
    simp only [gray]
    exact ⟨⟨go _ m1 M1, go _ m2 M2, go _ m3 M3, rfl⟩, go _ (by linarith) (by linarith), go _ (by linarith) (by linarith),
      go _ (by linarith) (by linarith), rfl⟩
  · have on : ∀ u : ℝ, hslChannel (to_hsl .rgb c).c1 (to_hsl .rgb c).c2 u = darkest c + (brightest c - darkest c) * shareAt u := by
      intro u
      unfold hslChannel
      rw [hs, lm', shareAt_turn]; ring
    simp only [on] at n ⊢
    refine ⟨⟨?_, ?_, ?_, rfl⟩, ?_, ?_, ?_, rfl⟩
    · rw [abs_sub_comm]; exact n.1
    · rw [abs_sub_comm]; exact n.2.1
    · rw [abs_sub_comm]; exact n.2.2.1
    all_goals
      unfold onWheel
      simp only [shareAt_turn, fa, f0', fm]
      rw [sub_self, abs_zero]; norm_num

variable [Libm b32]

/-- **Both programs.** Turning the hue enlarges differences at most 11 times, and 12/32768 comes on top. -/
theorem C134_follows (a : F32) (ha : a.fin = true) (a0 : -360 ≤ a.val) (a1 : a.val ≤ 360) :
    Follows 11 (12 / 32768) (Rgb.with_hue_rotate · a) (Rgb.with_hue_rotate · a.val) := by
  have A0 : (-360 : ℝ) ≤ a.val := by exact_mod_cast a0
  have A1 : (a.val : ℝ) ≤ 360 := by exact_mod_cast a1
  have unit : ∀ {d : Col ℝ}, UnitReal d → Spec.Unit d := fun hd =>
    ⟨hd.c0.1, hd.c0.2, hd.c1.1, hd.c1.2, hd.c2.1, hd.c2.2, hd.alpha.1, hd.alpha.2⟩
  refine ⟨fun c hc => ?_, fun d hd => ?_, fun t c d hc hd e => ?_⟩
  · obtain ⟨_, _, _, _, f, _⟩ := C134_turn c hc a ha a0 a1
    have : ∃ R G B, Rgb.with_hue_rotate c a = Rgb.new_with_alpha R G B c.alpha := by
      unfold Rgb.with_hue_rotate Hsl.to_rgb
      simp only
      split <;> exact ⟨_, _, _, rfl⟩
    obtain ⟨R, G, B, e⟩ := this
    simp only [e] at f ⊢
    exact ⟨clamped_unit f.c0.fin, clamped_unit f.c1.fin, clamped_unit f.c2.fin, clamped_unit f.alpha.fin⟩
  · obtain ⟨h0, h1, s0, s1, l0, l1, lm, ea⟩ := C28_hsl_range d (unit hd)
    have e : Rgb.with_hue_rotate d (a.val : ℝ) = Hsl.to_rgb ⟨Int.fract ((to_hsl .rgb d).c0 + a.val / 360), (to_hsl .rgb d).c1, (to_hsl .rgb d).c2, d.alpha⟩ := by
      rw [C71_rotation d (unit hd) a.val A0 A1]; rfl
    rw [Exact.hsl_to_rgb (Int.fract_nonneg _) (Int.fract_lt_one _).le s0 s1 l0 l1 hd.alpha.1 hd.alpha.2] at e
    rw [e]
    exact ⟨hslChannel_range s0 s1 l0 l1, hslChannel_range s0 s1 l0 l1, hslChannel_range s0 s1 l0 l1, hd.alpha⟩
  · obtain ⟨u, -, -, c1, r1, al⟩ := C134_turn c hc a ha a0 a1
    obtain ⟨v, -, -, c2, r2⟩ := C134_exact d (unit hd) a.val A0 A1
    have t0 := (abs_nonneg _).trans e.alpha.err
    have dk : |darkest (exact c) - darkest d| ≤ t :=
      (abs_min_sub_min_le_max _ _ _ _).trans (max_le e.c0.err ((abs_min_sub_min_le_max _ _ _ _).trans (max_le e.c1.err e.c2.err)))
    have bt : |brightest (exact c) - brightest d| ≤ t :=
      (abs_max_sub_max_le_max _ _ _ _).trans (max_le e.c0.err ((abs_max_sub_max_le_max _ _ _ _).trans (max_le e.c1.err e.c2.err)))
    have le : ∀ x : Col ℝ, darkest x ≤ brightest x := fun x => (min_le_left _ _).trans (le_max_left _ _)
    have near : ∀ {x : F32} {y p q : ℝ}, Close x p (1 / 32768) → |y - q| ≤ 1 / 32768 → |(x.val : ℝ) - y| ≤ t →
        |p - q| ≤ t + 2 / 32768 := by
      intro x y p q h1 h2 h3
      have h1 := abs_le.1 h1.err
      rw [abs_le] at *
      constructor <;> linarith
    have mv := wheel_move (t := u) (t' := v) (η := 2 / 32768) (le (exact c)) (le d) (by norm_num) dk bt (by
      rintro i (rfl | rfl | rfl)
      · exact near c1.c0 c2.1 e.c0.err
      · rw [add_zero, add_zero]; exact near c1.c1 c2.2.1 e.c1.err
      · exact near c1.c2 c2.2.2.1 e.c2.err)
    have go : ∀ {x : F32} {y p q : ℝ}, Close x p (1 / 32768) → |y - q| ≤ 1 / 32768 →
        |p - q| ≤ 11 * t + 5 * (2 / 32768) → Close x y (11 * t + 12 / 32768) := by
      intro x y p q h1 h2 h3
      refine ⟨h1.fin, ?_⟩
      have h1 := abs_le.1 h1.err
      rw [abs_le] at *
      constructor <;> linarith
    refine ⟨go r1.c0 r2.1 ?_, go r1.c1 r2.2.1 (mv _), go r1.c2 r2.2.2.1 ?_, r1.alpha.fin, ?_⟩
    · have := mv (a.val / 360 + 1 / 3)
      rw [← add_assoc, ← add_assoc] at this
      exact this
    · have := mv (a.val / 360 - 1 / 3)
      rw [← add_sub_assoc, ← add_sub_assoc] at this
      exact this
    · show |((Rgb.with_hue_rotate c a).alpha.val : ℝ) - (Rgb.with_hue_rotate d (a.val : ℝ)).alpha| ≤ _
      rw [al, r2.2.2.2]
      exact e.alpha.err.trans (by linarith)

end

/-! ## The hypotheses can be met -/

/-- Pure red lies at hue 0, and a third of a turn further is pure green. -/
example : onWheel 0 1 0 1 = ⟨1, 0, 0, 1⟩ ∧ onWheel 0 1 (0 + 120 / 360) 1 = ⟨0, 1, 0, 1⟩ := by
  have e : ∀ (t : ℝ) (n : ℤ), 0 ≤ t - n → t - n < 1 → Int.fract t = t - n := fun t n h0 h1 => by
    rw [Int.fract_eq_iff]; exact ⟨h0, h1, n, by ring⟩
  unfold onWheel shareAt
  rw [e (0 + 1 / 3) 0 (by norm_num) (by norm_num), e 0 0 (by norm_num) (by norm_num), e (0 - 1 / 3) (-1) (by norm_num) (by norm_num),
    e (0 + 120 / 360 + 1 / 3) 0 (by norm_num) (by norm_num), e (0 + 120 / 360) 0 (by norm_num) (by norm_num),
    e (0 + 120 / 360 - 1 / 3) 0 (by norm_num) (by norm_num)]
  norm_num [abs_of_nonneg, abs_of_neg]

/-- An angle as the theorem asks for. -/
example : (FP.ofRat b32 false 120).fin = true ∧ -360 ≤ (FP.ofRat b32 false 120).val ∧ (FP.ofRat b32 false 120).val ≤ 360 := by
  decide +kernel

end D10
