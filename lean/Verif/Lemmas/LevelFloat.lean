import Verif.Lemmas.Chain

/-!
# Lemmas about levels with 32-bit and with exact numbers (C132)
-/

namespace D10
open Spec
open Scalar (lit)

section
variable [Libm b32] [Junk]

omit [Libm b32] [Junk] in
theorem follows_comp {L η M θ : ℝ} {f g} {f' g'} (h : Follows L η f g) (k : Follows M θ f' g') :
    Follows (M * L) (M * η + θ) (fun c => f' (f c)) (fun c => g' (g c)) := by
  refine ⟨fun c hc => k.range _ (h.range c hc), fun d hd => k.range_exact _ (h.range_exact d hd), fun t c d hc hd e => ?_⟩
  have := k.close _ _ _ (h.range c hc) (h.range_exact d hd) (h.close t c d hc hd e)
  have e' : M * (L * t + η) + θ = M * L * t + (M * η + θ) := by ring
  rwa [e'] at this

omit [Libm b32] [Junk] in
theorem follows_congr {L η : ℝ} {f f' : Col F32 → Col F32} {g g' : Col ℝ → Col ℝ} (h : Follows L η f g)
    (hf : ∀ c, UnitCol c → f' c = f c) (hg : ∀ d, UnitReal d → g' d = g d) : Follows L η f' g' := by
  refine ⟨fun c hc => ?_, fun d hd => ?_, fun t c d hc hd e => ?_⟩
  · rw [hf c hc]; exact h.range c hc
  · rw [hg d hd]; exact h.range_exact d hd
  · rw [hf c hc, hg d hd]; exact h.close t c d hc hd e

/-- The stretching between black and white, as the closure of `with_level` does it. -/
def stretchLevel {F : Type} [Scalar F] (b w v : F) : F :=
  clamp01 ((v -. b) *. (if Scalar.abs (w -. b) <. f32_EPSILON then lit 1 /. EPSILON else lit 1 /. (w -. b)))

/-- The error of one channel. -/
theorem stretch_near {b w v : F32} {m : ℕ} (hm : m ≤ 12) (hb : b.fin = true ∧ 0 ≤ b.val ∧ b.val ≤ 1)
    (hw : w.fin = true ∧ 0 ≤ w.val ∧ w.val ≤ 1) (hd : 1 / 2 ^ m ≤ |(w.val : ℝ) - b.val|)
    (hv : v.fin = true ∧ 0 ≤ v.val ∧ v.val ≤ 1) :
    Close (stretchLevel b w v) (limit (((v.val : ℝ) - b.val) / (w.val - b.val))) ((4 ^ m + 3 * 2 ^ m) / 2 ^ 24) := by
  have b0 := unit_real hb
  have w0 := unit_real hw
  have v0 := unit_real hv
  have two : (1 : ℝ) ≤ 2 ^ m := one_le_pow₀ (by norm_num)
  have top : (2 : ℝ) ^ m ≤ 4096 := by
    have : (2 : ℝ) ^ m ≤ 2 ^ 12 := pow_le_pow_right₀ (by norm_num) hm
    norm_num at this ⊢
    exact this
  have four : (4 : ℝ) ^ m = 2 ^ m * 2 ^ m := by rw [← mul_pow]; norm_num
  have diff := NearF.sub' 0 (by norm_num) (NearF.unit hw) (NearF.unit hb) (C := 1)
    (by rw [abs_le]; constructor <;> linarith) (by norm_num)
  have sub := NearF.sub' 0 (by norm_num) (NearF.unit hv) (NearF.unit hb) (C := 1)
    (by rw [abs_le]; constructor <;> linarith) (by norm_num)
  norm_num at diff sub
  have P0 : (0 : ℝ) < 2 ^ m := by positivity
  have hpow : (2 : ℝ) ^ (m + 1) = 2 * 2 ^ m := by rw [pow_succ]; ring
  have small : (1 : ℝ) / 4096 ≤ 1 / 2 ^ m := one_div_le_one_div_of_le (by positivity) top
  have test : (Scalar.abs (w -. b) <. f32_EPSILON) = false := by
    have a := FP.abs_fin (x := w -. b) diff.close.fin
    have l : (FP.ofRat b32 false (1 / 8388608)).fin = true ∧ (FP.ofRat b32 false (1 / 8388608)).val = 1 / 8388608 := by
      decide +kernel
    show FP.lt (FP.abs (w -. b)) (FP.ofRat b32 false (1 / 8388608)) = false
    rw [FP.lt_fin a.1 l.1, a.2, l.2, decide_eq_false_iff_not, not_lt]
    have e := diff.close.err
    have r : (1 / 8388608 : ℝ) ≤ |((w -. b).val : ℝ)| := by
      have := abs_sub_abs_le_abs_sub ((w.val : ℝ) - b.val) ((w -. b).val : ℝ)
      rw [abs_sub_comm] at e
      linarith
    have := (Rat.cast_le (K := ℝ) (p := 1 / 8388608) (q := |(w -. b).val|)).1 (by push_cast; exact r)
    exact this
  generalize (2 : ℝ) ^ m = P at *
  have inv : 1 / P * P = 1 := by field_simp
  have E : (1 : ℝ) * (1 / 33554432) / (1 / P * (1 / P - 1 / 33554432)) ≤ 2 * P * P / 33554432 := by
    rw [div_le_iff₀ (mul_pos (by positivity) (by linarith))]
    have : 2 * P * P / 33554432 * (1 / P * (1 / P - 1 / 33554432)) = 2 / 33554432 * (1 - P / 33554432) := by
      field_simp
    rw [this]
    linarith
  have quo := NearF.div (m + 1) (by omega) (m := 1 / P) NearF.one diff hd (by linarith) (by
    rw [hpow, one_div_one_div, zero_div, zero_add]
    nlinarith)
  rw [hpow, one_div_one_div, zero_div, zero_add] at quo
  have quo := quo.mono (d := (2 * P * P + 2 * P) / 33554432) (B := P) (by linarith) le_rfl
  have prod := NearF.mul (m + 1) (by omega) sub quo (by
    rw [hpow]
    nlinarith)
  rw [hpow] at prod
  have c := close_clamp prod.close
  unfold stretchLevel
  rw [test, if_neg (by simp)]
  have e : (clamp01 (((v.val : ℝ) - b.val) * (1 / (w.val - b.val))) : ℝ) = limit (((v.val : ℝ) - b.val) / (w.val - b.val)) := by
    rw [Exact.clamp01, mul_one_div]
    rfl
  rw [e] at c
  refine c.mono ?_
  rw [four]
  nlinarith

/-- Stretching as a change of colours. -/
theorem follows_stretch {b w : F32} {m : ℕ} (hm : m ≤ 12) (hb : b.fin = true ∧ 0 ≤ b.val ∧ b.val ≤ 1)
    (hw : w.fin = true ∧ 0 ≤ w.val ∧ w.val ≤ 1) (hd : 1 / 2 ^ m ≤ |(w.val : ℝ) - b.val|) :
    Follows (2 ^ m) ((4 ^ m + 3 * 2 ^ m) / 2 ^ 24) (Rgb.map_channels_unclamped · (stretchLevel b w))
      (eachChannel fun v => limit ((v - b.val) / ((w.val : ℝ) - b.val))) := by
  have P0 : (0 : ℝ) < 2 ^ m := by positivity
  have near : ∀ c : Col F32, UnitCol c → CloseCol ((4 ^ m + 3 * 2 ^ m) / 2 ^ 24) (Rgb.map_channels_unclamped c (stretchLevel b w))
      (eachChannel (fun v => limit ((v - b.val) / ((w.val : ℝ) - b.val))) (exact c)) := fun c hc =>
    ⟨stretch_near hm hb hw hd hc.c0, stretch_near hm hb hw hd hc.c1, stretch_near hm hb hw hd hc.c2,
      (close_exact hc).alpha.mono (by positivity)⟩
  refine .of (fun c hc => ?_) (fun d hd => each_unit (fun v _ _ => limit_unit _) hd) near ?_
  · have n := near c hc
    exact ⟨clamped_unit n.c0.fin, clamped_unit n.c1.fin, clamped_unit n.c2.fin, hc.alpha⟩
  · refine each_stretch (one_le_pow₀ (by norm_num)) (fun v u _ _ _ _ => (limit_sub _ _).trans ?_)
    have q : 0 < |(w.val : ℝ) - b.val| := lt_of_lt_of_le (by positivity) hd
    rw [← sub_div, abs_div, div_le_iff₀ q, sub_sub_sub_cancel_right]
    have : 1 ≤ 2 ^ m * |(w.val : ℝ) - b.val| := by
      rw [div_le_iff₀ P0] at hd
      linarith
    nlinarith [abs_nonneg (v - u)]

/-- Levels with a gamma up to 1. -/
theorem follows_level {δ : ℝ} (hL : PowWithin δ) {b w g : F32} {m : ℕ} (hm : m ≤ 12)
    (hb : b.fin = true ∧ 0 ≤ b.val ∧ b.val ≤ 1) (hw : w.fin = true ∧ 0 ≤ w.val ∧ w.val ≤ 1)
    (hd : 1 / 2 ^ m ≤ |(w.val : ℝ) - b.val|) (hg : g.fin = true) (g0 : 1 / 2 ^ 100 ≤ g.val) (g1 : g.val ≤ 1) :
    Follows (1 / (g.val : ℝ) * 2 ^ m) (1 / (g.val : ℝ) * ((4 ^ m + 3 * 2 ^ m) / 2 ^ 24) + (δ + 1 / 8388608))
      (Rgb.with_level · b w g) (Rgb.with_level · b.val w.val g.val) := by
  have pos : (0 : ℝ) < g.val := by
    have : (0 : ℚ) < g.val := lt_of_lt_of_le (by positivity) g0
    exact_mod_cast this
  have far : (1 : ℝ) / 8388608 ≤ |(w.val : ℝ) - b.val| := by
    refine le_trans ?_ hd
    have : (2 : ℝ) ^ m ≤ 2 ^ 12 := pow_le_pow_right₀ (by norm_num) hm
    exact one_div_le_one_div_of_le (by positivity) (this.trans (by norm_num))
  refine follows_congr (follows_comp (follows_stretch hm hb hw hd) (follows_gamma hL hg g0 g1)) (fun c hc => ?_) (fun d _ => ?_)
  · have k := (follows_stretch hm hb hw hd).range c hc
    have idem : ∀ v : F32, (stretchLevel b w v).fin = true ∧ 0 ≤ (stretchLevel b w v).val ∧ (stretchLevel b w v).val ≤ 1 →
        Rgb.level b w g v = Scalar.powf (clamp01 (stretchLevel b w v)) (lit 1 /. g) := by
      intro v h
      rw [clamp_self32 h]
      rfl
    show Rgb.map_channels c (Rgb.level b w g) =
      Rgb.map_channels (Rgb.map_channels_unclamped c (stretchLevel b w)) fun v => Scalar.powf (clamp01 v) (lit 1 /. g)
    unfold Rgb.map_channels Rgb.map_channels_unclamped
    simp only
    rw [idem _ k.c0, idem _ k.c1, idem _ k.c2]
  · rw [(C83_level d b.val w.val g.val pos).1 far, (C83_gamma _ g.val pos).1]
    have : ∀ v : ℝ, limit (limit v) = limit v := fun v => by
      have := limit_unit v
      rw [← show clamp01 (limit v) = limit (limit v) from Exact.clamp01 _]
      exact Exact.clamp01_id this.1 this.2
    show eachChannel _ _ = eachChannel _ (eachChannel _ d)
    unfold eachChannel
    simp only [levelCurve, gammaCurve, this]

end
end D10
