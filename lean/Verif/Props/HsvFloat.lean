import Verif.Lemmas.HsvTrip
import Verif.Props.HslFloat

/-!
# HSV conversions in the program's own floats (C29)
-/

namespace D10
open Spec
open Scalar (lit)

variable [Libm b32]

/-- Colours whose saturation is computed as 0 come back as a gray. -/
theorem hsv_zero {c : Col F32} (h : ((Rgb.to_hsv c).c1 <=. lit 0) = true) :
    Hsv.to_rgb (Rgb.to_hsv c) = ⟨Rgb.max c, Rgb.max c, Rgb.max c, c.alpha⟩ := by
  have e2 : (Rgb.to_hsv c).c2 = Rgb.max c := by
    unfold Rgb.to_hsv; simp only; split <;> rfl
  have e3 : (Rgb.to_hsv c).alpha = c.alpha := by
    unfold Rgb.to_hsv; simp only; split <;> rfl
  unfold Hsv.to_rgb
  simp only [if_pos h, e2, e3]

theorem zero_le_zero32 : ((lit 0 : F32) <=. lit 0) = true := by
  have l0 : (lit 0 : F32) = .zero false := FP.ofRat_zero false
  rw [l0]; rfl

/-- C29, the program's own floats: every in-range colour whose greatest channel is at least EPSILON comes
back from HSV with each channel within 1/200000, and with the same alpha. -/
theorem C29_hsv_float (c : Col F32) (h : UnitCol c)
    (hM : 1 / 32768 ≤ max c.c0.val (max c.c1.val c.c2.val)) :
    CloseCol (1 / 200000) (to_rgb .hsv (to_hsv .rgb c)) (exact c) ∧
    (to_rgb .hsv (to_hsv .rgb c)).alpha = c.alpha := by
  show CloseCol _ (Hsv.to_rgb (Rgb.to_hsv c)) _ ∧ (Hsv.to_rgb (Rgb.to_hsv c)).alpha = _
  obtain ⟨iM, M0, M1, M2, Mc⟩ := max32 h
  obtain ⟨im, m0, m1, m2, mc⟩ := min32 h
  have U0 : In01 c.c0 := h.c0
  have U1 : In01 c.c1 := h.c1
  have U2 : In01 c.c2 := h.c2
  have U3 : In01 c.alpha := h.alpha
  have hM' : 1 / 32768 ≤ ((Rgb.max c).val : ℝ) := by
    have a0 : c.c0.val ≤ (Rgb.max c).val := by exact_mod_cast M0
    have a1 : c.c1.val ≤ (Rgb.max c).val := by exact_mod_cast M1
    have a2 : c.c2.val ≤ (Rgb.max c).val := by exact_mod_cast M2
    have : ((1 / 32768 : ℚ) : ℝ) ≤ ((Rgb.max c).val : ℝ) := by
      exact_mod_cast hM.trans (max_le a0 (max_le a1 a2))
    push_cast at this; exact this
  have hc : ((EPSILON <=. (Rgb.max c -. Rgb.min c)) || (EPSILON <=. Rgb.max c)) = true := by
    rw [(le_real eps32.1 iM.1).2 (by rw [eps32.2]; exact hM'), Bool.or_true]
  have flat : Hsv.to_rgb (Rgb.to_hsv c) = ⟨Rgb.max c, Rgb.max c, Rgb.max c, c.alpha⟩ →
      ((Rgb.max c).val : ℝ) - (Rgb.min c).val ≤ 1 / 200000 →
      CloseCol (1 / 200000) (Hsv.to_rgb (Rgb.to_hsv c)) (exact c) ∧ (Hsv.to_rgb (Rgb.to_hsv c)).alpha = c.alpha := by
    intro e hd
    rw [e]
    have go : ∀ {x : F32}, (x.val : ℝ) ≤ (Rgb.max c).val → ((Rgb.min c).val : ℝ) ≤ x.val →
        Close (Rgb.max c) x.val (1 / 200000) := by
      intro x h1 h2
      exact ⟨iM.1, by rw [abs_le]; constructor <;> linarith⟩
    exact ⟨⟨go M0 m0, go M1 m1, go M2 m2, close_self U3.1 (by norm_num)⟩, rfl⟩
  rcases lt_or_eq_of_le (m0.trans M0) with hne | heq
  · obtain ⟨t1, t2⟩ := hsv_trip h hc hne
    by_cases hz : ((Rgb.to_hsv c).c1 <=. lit 0) = true
    · exact flat (t2 hz).1 (t2 hz).2
    · obtain ⟨R, G, B, e, hR, hG, hB⟩ := t1 (by simpa using hz)
      rw [e]
      refine ⟨⟨clamp_close hR U0.real.1 U0.real.2, clamp_close hG U1.real.1 U1.real.2,
        clamp_close hB U2.real.1 U2.real.2, ?_⟩, clamp_self32 U3⟩
      show Close (clamp01 c.alpha) _ _
      rw [clamp_self32 U3]; exact close_self U3.1 (by norm_num)
  · -- a gray: the saturation is 0
    have dl := NearF.sub_rel iM im
    rw [heq, sub_self, abs_zero, zero_div] at dl
    have dv : (Rgb.max c -. Rgb.min c : F32).val = 0 := by
      have := abs_nonpos_iff.1 dl.close.err
      have : ((Rgb.max c -. Rgb.min c : F32).val : ℝ) = 0 := by linarith
      exact_mod_cast this
    have Mp : (Rgb.max c).val ≠ 0 := by
      intro h0; rw [h0] at hM'; norm_num at hM'
    have s1 : (Rgb.to_hsv c).c1 = (Rgb.max c -. Rgb.min c) /. Rgb.max c := by
      unfold Rgb.to_hsv; simp only; rw [if_pos hc]
    have sz : ((Rgb.to_hsv c).c1 <=. lit 0) = true := by
      rw [s1]
      have e : ((Rgb.max c -. Rgb.min c) /. Rgb.max c : F32) =
          FP.ofRat b32 ((Rgb.max c -. Rgb.min c : F32).isNeg ^^ (Rgb.max c).isNeg) 0 := by
        show FP.div _ _ = _
        rw [FP.div_fin dl.close.fin iM.1 Mp, dv, zero_div]
      have z := FP.ofRat_zero (f := b32) ((Rgb.max c -. Rgb.min c : F32).isNeg ^^ (Rgb.max c).isNeg)
      rw [e, z]
      have l0 : (lit 0 : F32) = .zero false := FP.ofRat_zero false
      rw [l0]; rfl
    exact flat (hsv_zero sz) (by rw [heq, sub_self]; norm_num)

/-- A dark colour becomes the gray of its greatest channel. -/
theorem hsv_dark (c : Col F32) (h : UnitCol c) (hM : ¬ 1 / 32768 ≤ max c.c0.val (max c.c1.val c.c2.val)) :
    ((Rgb.max c).val : ℝ) < 1 / 32768 ∧
    Hsv.to_rgb (Rgb.to_hsv c) = ⟨Rgb.max c, Rgb.max c, Rgb.max c, c.alpha⟩ := by
  obtain ⟨iM, M0, M1, M2, Mc⟩ := max32 h
  obtain ⟨im, m0, m1, m2, mc⟩ := min32 h
  have dl := NearF.sub_rel iM im
  rw [abs_of_nonneg (by linarith)] at dl
  have lt : ((Rgb.max c).val : ℝ) < 1 / 32768 := by
    have : (Rgb.max c).val < (1 / 32768 : ℚ) := by
      refine lt_of_le_of_lt ?_ (not_le.1 hM)
      rcases Mc with e | e | e <;> rw [e] <;> simp
    have : (((Rgb.max c).val : ℚ) : ℝ) < ((1 / 32768 : ℚ) : ℝ) := by exact_mod_cast this
    push_cast at this; exact this
  refine ⟨lt, ?_⟩
  apply hsv_zero
  have hc1 : (EPSILON <=. Rgb.max c) = false := by
    rw [← Bool.not_eq_true, le_real eps32.1 iM.1, eps32.2, not_le]; exact lt
  have hc2 : (EPSILON <=. (Rgb.max c -. Rgb.min c)) = false := by
    rw [← Bool.not_eq_true, le_real eps32.1 dl.close.fin, eps32.2, not_le]
    -- the difference is at most the greatest channel
    have hb : (Rgb.max c).val - (Rgb.min c).val ≤ (Rgb.max c).val := by linarith [im.2.1]
    have e : (Rgb.max c -. Rgb.min c : F32).val = rn b32 ((Rgb.max c).val - (Rgb.min c).val) := by
      have hf := dl.close.fin
      have e : (Rgb.max c -. Rgb.min c : F32) = FP.ofRat b32 ((Rgb.max c).isNeg && (Rgb.min c).neg.isNeg)
          ((Rgb.max c).val - (Rgb.min c).val) := by
        show FP.sub _ _ = _
        rw [FP.sub_fin iM.1 im.1]
      rw [e] at hf ⊢
      exact ofRat_fin_val hf
    rw [e]
    have := rn_le_rep (FP.fin_rep iM.1).1 hb
    have : ((rn b32 ((Rgb.max c).val - (Rgb.min c).val) : ℚ) : ℝ) ≤ ((Rgb.max c).val : ℝ) := by exact_mod_cast this
    linarith
  have s1 : (Rgb.to_hsv c).c1 = lit 0 := by
    unfold Rgb.to_hsv; simp only; rw [hc1, hc2]; rfl
  rw [s1]; exact zero_le_zero32

/-- C29, the program's own floats: every in-range colour equals (`==`) the colour converted to HSV and
back. -/
theorem C29_hsv_float_eq (c : Col F32) (h : UnitCol c) :
    Col.eq (to_rgb .hsv (to_hsv .rgb c)) c = true := by
  by_cases hM : 1 / 32768 ≤ max c.c0.val (max c.c1.val c.c2.val)
  · exact eq_of_close (b := 0) (C29_hsv_float c h hM).1 ⟨h.c0.1, h.c1.1, h.c2.1, h.alpha.1⟩ (by simp [exact])
      (by simp [exact]) (by simp [exact]) (by simp [exact]) (by norm_num)
  · obtain ⟨iM, M0, M1, M2, Mc⟩ := max32 h
    obtain ⟨im, m0, m1, m2, mc⟩ := min32 h
    obtain ⟨lt, key⟩ := hsv_dark c h hM
    show Col.eq (Hsv.to_rgb (Rgb.to_hsv c)) c = true
    rw [key]
    have go : ∀ {x : F32}, (x.val : ℝ) ≤ (Rgb.max c).val → ((Rgb.min c).val : ℝ) ≤ x.val →
        |((Rgb.max c).val : ℝ) - x.val| ≤ 1 / 32768 := by
      intro x h1 h2
      rw [abs_le]; constructor <;> linarith [im.real.1]
    have cc : CloseCol 0 (⟨Rgb.max c, Rgb.max c, Rgb.max c, c.alpha⟩ : Col F32)
        ⟨(Rgb.max c).val, (Rgb.max c).val, (Rgb.max c).val, c.alpha.val⟩ :=
      ⟨close_self iM.1 le_rfl, close_self iM.1 le_rfl, close_self iM.1 le_rfl, close_self h.alpha.1 le_rfl⟩
    exact eq_of_close (b := 1 / 32768) cc ⟨h.c0.1, h.c1.1, h.c2.1, h.alpha.1⟩ (go M0 m0) (go M1 m1) (go M2 m2)
      (by simp) (by norm_num)

/-- The hypotheses hold, for example, for the colour for which HSL fails. -/
example : UnitCol nearTie ∧ Col.eq (to_rgb .hsv (to_hsv .rgb nearTie)) nearTie = true := by
  have h : UnitCol nearTie := by constructor <;> unfold nearTie <;> decide +kernel
  exact ⟨h, C29_hsv_float_eq _ h⟩

end D10
