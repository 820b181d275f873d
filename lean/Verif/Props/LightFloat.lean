import Verif.Props.Light
import Verif.Lemmas.LanczosFloat

/-!
# C137: darkening with 32-bit numbers
-/

namespace D10
open Spec
open Scalar (lit)

section
variable [Libm b32]

/-- A sum that is not above 1 is not rounded above 1, and half of it not above 1/2. -/
theorem half_sum {M m : F32} (hM : In01 M) (hm : In01 m) (hs : (M.val : ℝ) + m.val ≤ 1) :
    (((M +. m) /. lit 2 : F32).val : ℝ) ≤ 1 / 2 := by
  have S := NearF.add_rel hM hm
  obtain ⟨M0, M1⟩ := hM.real
  obtain ⟨m0, m1⟩ := hm.real
  have L := (S.mono (d := 2 / 16777216) (B := 2) (by linarith) (by linarith)).div 1 (by norm_num) NearF.two
      (m := 2) (by norm_num) (by norm_num) (by norm_num)
  have two : (lit 2 : F32).val = 2 := by
    have := abs_nonpos_iff.1 NearF.two.close.err
    have e : ((lit 2 : F32).val : ℝ) = ((2 : ℚ) : ℝ) := by push_cast; linarith
    exact_mod_cast e
  have one : rn b32 1 = 1 := rn_rep (q := 1) (by
    have := (FP.fin_rep (x := FP.ofRat b32 false 1) (by decide +kernel)).1
    rwa [show (FP.ofRat b32 false 1).val = 1 by decide +kernel] at this)
  have half : rn b32 (1 / 2) = 1 / 2 := rn_rep (q := 1 / 2) (by
    have := (FP.fin_rep (x := FP.ofRat b32 false (1 / 2)) (by decide +kernel)).1
    rwa [show (FP.ofRat b32 false (1 / 2)).val = 1 / 2 by decide +kernel] at this)
  have hs' : M.val + m.val ≤ 1 := by
    have : ((M.val + m.val : ℚ) : ℝ) ≤ ((1 : ℚ) : ℝ) := by push_cast; linarith
    exact_mod_cast this
  have a : (M +. m : F32).val ≤ 1 := by
    have e : (M +. m : F32) = FP.ofRat b32 _ (M.val + m.val) := FP.add_fin hM.1 hm.1
    have f := S.close.fin
    rw [e] at f ⊢
    rw [ofRat_val f, ← one]
    exact rn_mono hs'
  have b : ((M +. m) /. lit 2 : F32).val ≤ 1 / 2 := by
    have e : ((M +. m) /. lit 2 : F32) = FP.ofRat b32 _ ((M +. m : F32).val / (lit 2 : F32).val) :=
      FP.div_fin S.close.fin NearF.two.close.fin (by rw [two]; norm_num)
    have f := L.close.fin
    rw [two] at e
    rw [e] at f ⊢
    rw [ofRat_val f, ← half]
    exact rn_mono (by linarith)
  have c : (((M +. m) /. lit 2 : F32).val : ℝ) ≤ ((1 / 2 : ℚ) : ℝ) := by exact_mod_cast b
  push_cast at c
  exact c

set_option maxHeartbeats 1000000 in
/-- The greatest and the least channel after darkening by `k`. -/
theorem q_dark {M m k : F32} (hM : In01 M) (hm : In01 m) (hk : In01 k) (hd : 1 / 32769 ≤ (M.val : ℝ) - m.val)
    (hs1 : (M.val : ℝ) + m.val ≤ 1) :
    NearF (q32 (clamp01 ((M +. m) /. lit 2 *. k)) (sat32 M m)) (k.val * M.val) (22 / 16777216) 1 ∧
    NearF (lit 2 *. clamp01 ((M +. m) /. lit 2 *. k) -. q32 (clamp01 ((M +. m) /. lit 2 *. k)) (sat32 M m))
      (k.val * m.val) (30 / 16777216) 1 := by
  obtain ⟨M0, M1⟩ := hM.real
  obtain ⟨m0, m1⟩ := hm.real
  obtain ⟨k0, k1⟩ := hk.real
  have nk := NearF.unit hk
  have S := NearF.add_rel hM hm
  have dl := NearF.sub_rel hM hm
  rw [abs_of_pos (by linarith : 0 < (M.val : ℝ) - m.val)] at dl
  have L : NearF ((M +. m) /. lit 2) (((M.val : ℝ) + m.val) / 2) (2 / 16777216) 0.5 := by
    have := ((S.mono (d := 2 / 16777216) (B := 2) (by linarith) (by linarith)).div 1 (by norm_num) NearF.two
      (m := 2) (by norm_num) (by norm_num) (by norm_num)).mono (d := 2 / 16777216) (B := 1) (by norm_num) (by norm_num)
    exact ⟨this.close, by rw [abs_of_nonneg (by linarith)]; linarith⟩
  have half := NearF.half
  have hv : ((lit 0.5 : F32).val : ℝ) = 1 / 2 := by
    have := half.close.err
    linarith [abs_nonpos_iff.1 this]
  have hl : ¬ (lit 0.5 <. (M +. m) /. lit 2) = true := by
    rw [lt_real half.close.fin L.close.fin, hv, not_lt]
    exact half_sum hM hm hs1
  have hs : sat32 M m = (M -. m) /. (M +. m) := by unfold sat32; rw [if_neg hl]
  have Sp : 0 < (M.val : ℝ) + m.val := by linarith
  have ns : NearF (sat32 M m) (((M.val : ℝ) - m.val) / (M.val + m.val)) (4 / 16777216) 1 := by
    rw [hs]; exact NearF.ratio Sp (dl.mono (by linarith) (by linarith)) S
  have sv : ((M.val : ℝ) - m.val) / (M.val + m.val) * (M.val + m.val) = M.val - m.val := div_mul_cancel₀ _ Sp.ne'
  set s := sat32 M m
  set σ := ((M.val : ℝ) - m.val) / (M.val + m.val)
  have σ0 : 0 ≤ σ := div_nonneg (by linarith) Sp.le
  have σ1 : σ ≤ 1 := (le_abs_self _).trans ns.le
  have nt := L.mul 0 (by norm_num) nk (by norm_num)
  have x0 : 0 ≤ ((M.val : ℝ) + m.val) / 2 * k.val := mul_nonneg (by linarith) k0
  have x1 : ((M.val : ℝ) + m.val) / 2 * k.val ≤ 1 / 2 := by nlinarith
  have nl : NearF (clamp01 ((M +. m) /. lit 2 *. k)) (((M.val : ℝ) + m.val) / 2 * k.val) (3 / 16777216) 0.5 :=
    ⟨(clamp_close nt.close x0 (by linarith)).mono (by norm_num), by rw [abs_of_nonneg x0]; linarith⟩
  set l' := clamp01 ((M +. m) /. lit 2 *. k)
  have Q1 : |(k.val : ℝ) * M.val| ≤ 1 := by
    rw [abs_of_nonneg (mul_nonneg k0 M0)]; exact mul_le_one₀ k1 M0 M1
  have P1 : |(k.val : ℝ) * m.val| ≤ 1 := by
    rw [abs_of_nonneg (mul_nonneg k0 m0)]; exact mul_le_one₀ k1 m0 m1
  have key : NearF (q32 l' s) (k.val * M.val) (22 / 16777216) 1 := by
    unfold q32
    by_cases hl2 : (l' <. lit 0.5) = true
    · rw [if_pos hl2]
      have a := NearF.one.add 2 (by norm_num) ns (by norm_num)
      have b := nl.mul 1 (by norm_num) a (by norm_num)
      exact ⟨b.is (by linear_combination (k.val / 2 : ℝ) * sv) (by norm_num), Q1⟩
    · rw [if_neg hl2]
      rw [lt_real nl.close.fin half.close.fin, hv, not_lt] at hl2
      have a := nl.add 1 (by norm_num) ns (by norm_num)
      have b := nl.mul 0 (by norm_num) ns (by norm_num)
      have c := a.sub 2 (by norm_num) b (by norm_num)
      refine ⟨⟨c.close.fin, ?_⟩, Q1⟩
      have e := c.close.err
      have le := abs_le.1 nl.close.err
      have f : |((M.val : ℝ) + m.val) / 2 * k.val + σ - (M.val + m.val) / 2 * k.val * σ - k.val * M.val| ≤ 6 / 16777216 := by
        have g : ((M.val : ℝ) + m.val) / 2 * k.val + σ - (M.val + m.val) / 2 * k.val * σ - k.val * M.val =
          σ * (1 - (M.val + m.val) * k.val) := by linear_combination (k.val / 2 : ℝ) * sv
        rw [g, abs_mul]
        calc |σ| * |1 - ((M.val : ℝ) + m.val) * k.val| ≤ 1 * (6 / 16777216) :=
              mul_le_mul ns.le (by rw [abs_le]; constructor <;> linarith) (abs_nonneg _) zero_le_one
          _ = _ := by ring
      rw [abs_le] at e f ⊢
      norm_num at e f ⊢
      constructor <;> linarith [e.1, e.2, f.1, f.2]
  refine ⟨key, ?_⟩
  have a := NearF.two.mul 1 (by norm_num) nl (by norm_num)
  have b := a.sub' (C := 1) 1 (by norm_num) key (by
    rw [abs_le]
    have := mul_nonneg k0 m0
    have := mul_nonneg k0 M0
    constructor <;> nlinarith) (by norm_num)
  exact ⟨b.is (by ring) (by norm_num), P1⟩

/-- **Darkening dark colours**, with 32-bit numbers and a factor between 0 and 1: every channel is multiplied by the factor, up to
1/32768 and 1/100000; alpha stays the same. -/
theorem C137_darken_float (c : Col F32) (h : UnitCol c) (hmid : midpoint (exact c) ≤ 1 / 2) (k : F32)
    (hk : k.fin = true ∧ 0 ≤ k.val ∧ k.val ≤ 1) :
    CloseCol (1 / 32768 + 1 / 100000) (Rgb.with_lightness c k) (eachChannel (k.val * ·) (exact c)) ∧
    (Rgb.with_lightness c k).alpha = c.alpha := by
  obtain ⟨hM, M0, M1, M2, -⟩ := max32 h
  obtain ⟨hm, m0, m1, m2, -⟩ := min32 h
  have U0 : In01 c.c0 := h.c0
  have U1 : In01 c.c1 := h.c1
  have U2 : In01 c.c2 := h.c2
  have U3 : In01 c.alpha := h.alpha
  obtain ⟨k0, k1⟩ := In01.real hk
  have al : Close (clamp01 c.alpha) (c.alpha.val : ℝ) (1 / 32768 + 1 / 100000) := by
    rw [clamp_self32 U3]; exact ⟨U3.1, by rw [sub_self, abs_zero]; norm_num⟩
  rw [midpoint32 h] at hmid
  set M := Rgb.max c with hM'
  set m := Rgb.min c with hm'
  have part : ∀ {x : F32}, In01 x → 0 ≤ (k.val : ℝ) * x.val ∧ (k.val : ℝ) * x.val ≤ 1 := fun hx =>
    ⟨mul_nonneg k0 hx.real.1, mul_le_one₀ k1 hx.real.1 hx.real.2⟩
  have fin : ∀ {R G B : F32}, Rgb.with_lightness c k = Rgb.new_with_alpha R G B c.alpha →
      Close (clamp01 R) (k.val * c.c0.val) (1 / 32768 + 1 / 100000) → Close (clamp01 G) (k.val * c.c1.val) (1 / 32768 + 1 / 100000) →
      Close (clamp01 B) (k.val * c.c2.val) (1 / 32768 + 1 / 100000) →
      CloseCol (1 / 32768 + 1 / 100000) (Rgb.with_lightness c k) (eachChannel (k.val * ·) (exact c)) ∧
        (Rgb.with_lightness c k).alpha = c.alpha := by
    intro R G B e hR hG hB
    rw [e]
    exact ⟨⟨hR, hG, hB, al⟩, clamp_self32 U3⟩
  have hMr := hM.real
  have hmr := hm.real
  by_cases hd : ((M -. m) <. EPSILON) = true
  · obtain ⟨-, hl, hg⟩ := hsl_gray h hd
    have e : Rgb.with_lightness c k = Rgb.new_with_alpha (clamp01 ((M +. m) /. lit 2 *. k)) (clamp01 ((M +. m) /. lit 2 *. k))
        (clamp01 ((M +. m) /. lit 2 *. k)) c.alpha := by
      have : Rgb.to_hsl c = ⟨lit 0, lit 0, (M +. m) /. lit 2, c.alpha⟩ := by
        unfold Rgb.to_hsl
        simp only
        rw [← hM', ← hm', if_pos hd]
      unfold Rgb.with_lightness Hsl.to_rgb
      rw [this]
      simp only
      rw [if_pos]
      show FP.eq (FP.ofRat b32 false 0) (FP.ofRat b32 false 0) = true
      rw [FP.eq_fin FP.lit0.1 FP.lit0.1, decide_eq_true rfl]
    have nl : NearF ((M +. m) /. lit 2) (((M.val : ℝ) + m.val) / 2) (2 / 16777216) 0.5 :=
      ⟨hl, by rw [abs_of_nonneg (by linarith)]; linarith⟩
    have nt := nl.mul 0 (by norm_num) (NearF.unit hk) (by norm_num)
    have flat : ∀ {x : F32}, In01 x → (x.val : ℝ) ≤ M.val → (m.val : ℝ) ≤ x.val →
        Close (clamp01 (clamp01 ((M +. m) /. lit 2 *. k))) (k.val * x.val) (1 / 32768 + 1 / 100000) := by
      intro x hx h1 h2
      obtain ⟨p0, p1⟩ := part hx
      apply clamp_close _ p0 p1
      apply clamp_close _ p0 p1
      refine ⟨nt.close.fin, ?_⟩
      have a := nt.close.err
      have b : |((M.val : ℝ) + m.val) / 2 * k.val - k.val * x.val| ≤ 1 / 65536 := by
        rw [show ((M.val : ℝ) + m.val) / 2 * k.val - k.val * x.val = k.val * (((M.val : ℝ) + m.val) / 2 - x.val) by ring, abs_mul,
          abs_of_nonneg k0]
        calc (k.val : ℝ) * |((M.val : ℝ) + m.val) / 2 - x.val| ≤ 1 * (1 / 65536) :=
              mul_le_mul k1 (by rw [abs_le]; constructor <;> linarith) (abs_nonneg _) zero_le_one
          _ = _ := by ring
      rw [abs_le] at a b ⊢
      norm_num at a b ⊢
      constructor <;> linarith [a.1, a.2, b.1, b.2]
    exact fin e (flat U0 M0 m0) (flat U1 M1 m1) (flat U2 M2 m2)
  · obtain ⟨hue, H, e, H0, H1, t1, t2, t3, w1, w2, w3⟩ := hue_parts h hd
    have hd1 : 1 / 32769 ≤ (M.val : ℝ) - m.val := by
      have dl := NearF.sub_rel hM hm
      rw [below_eps hM hm, not_lt] at hd
      have := abs_le.1 dl.close.err
      rw [abs_of_nonneg (by linarith)] at this
      linarith
    have hz0 := (q_near hM hm hd1).1
    obtain ⟨hq, hp⟩ := q_dark hM hm hk hd1 (by linarith)
    rw [← hM', ← hm'] at e w1 w2 w3
    set l' : F32 := clamp01 ((M +. m) /. lit 2 *. k) with hl'
    have hsat : Rgb.with_lightness c k = Hsl.to_rgb ⟨hue, sat32 M m, l', c.alpha⟩ := by
      unfold Rgb.with_lightness
      rw [e]
    set q := q32 l' (sat32 M m) with hq'
    set p := lit 2 *. l' -. q with hp'
    have e2 : Rgb.with_lightness c k = Rgb.new_with_alpha (Hsl.hue2rgb p q (hue +. lit 1 /. lit 3)) (Hsl.hue2rgb p q hue)
        (Hsl.hue2rgb p q (hue -. lit 1 /. lit 3)) c.alpha := by
      rw [hsat]
      unfold Hsl.to_rgb
      simp only
      rw [if_neg (by rw [hz0]; exact nofun)]
      rfl
    have r := fun {t : F32} {T : ℝ} (ht : Close t T (4 / 16777216)) => hue2rgb_near (t := t) (T := T)
      (P := (k.val : ℝ) * m.val) (Q := k.val * M.val) (mul_nonneg k0 hmr.1)
      (mul_le_mul_of_nonneg_left (by linarith) k0) (mul_le_one₀ k1 hMr.1 hMr.2)
      (e := 30 / 16777216) (by norm_num) hp (hq.mono (by norm_num) le_rfl) ht (by norm_num)
    have go : ∀ {x y : F32} {u : ℝ}, In01 x → (x.val : ℝ) ≤ M.val → (m.val : ℝ) ≤ x.val →
        Close y (k.val * m.val + ((k.val : ℝ) * M.val - k.val * m.val) * u) (4 * (30 / 16777216) + 6 * (4 / 16777216) + 22 / 16777216) →
        (m.val + (M.val - m.val : ℝ) * u = x.val ∨
          (Scalar.abs (M -. x) <. EPSILON) = true ∧ m.val + (M.val - m.val : ℝ) * u = M.val) →
        Close (clamp01 y) (k.val * x.val) (1 / 32768 + 1 / 100000) := by
      intro x y u hx h1 h2 hy hu
      obtain ⟨p0, p1⟩ := part hx
      apply clamp_close _ p0 p1
      refine ⟨hy.fin, ?_⟩
      have he := abs_le.1 hy.err
      have key : ∀ v : ℝ, m.val + (M.val - m.val : ℝ) * u = v →
          (k.val : ℝ) * m.val + ((k.val : ℝ) * M.val - k.val * m.val) * u = k.val * v := by
        intro v hv; rw [← hv]; ring
      rcases hu with hu | ⟨hn, hu⟩
      · rw [key _ hu] at he
        rw [abs_le]
        norm_num at he ⊢
        constructor <;> linarith
      · rw [key _ hu] at he
        have e := abs_sub32 hM hx h1
        rw [lt_real e.1 eps32.1, eps32.2, e.2] at hn
        have d : ((Rgb.max c).val : ℝ) - x.val ≤ 1 / 32768 := by
          by_contra hc
          have := not_near hM hx (not_le.1 hc).le
          linarith
        rw [← hM'] at d
        have f1 : 0 ≤ (k.val : ℝ) * (M.val - x.val) := mul_nonneg k0 (by linarith)
        have f2 : (k.val : ℝ) * (M.val - x.val) ≤ 1 / 32768 := by nlinarith
        rw [abs_le]
        norm_num at he f2 ⊢
        constructor <;> linarith
    exact fin e2 (go U0 M0 m0 (r t1 (by linarith) (by linarith)) w1) (go U1 M1 m1 (r t2 (by linarith) (by linarith)) w2)
      (go U2 M2 m2 (r t3 (by linarith) (by linarith)) (.inl w3))

end

/-- A colour and a factor as the theorem asks for. -/
example : UnitCol (⟨.ofRat b32 false (3 / 4), .ofRat b32 false (1 / 8), .ofRat b32 false 0, .ofRat b32 false 1⟩ : Col F32) ∧
    midpoint (exact (⟨.ofRat b32 false (3 / 4), .ofRat b32 false (1 / 8), .ofRat b32 false 0, .ofRat b32 false 1⟩ : Col F32)) ≤ 1 / 2 := by
  have v0 : (FP.ofRat b32 false (3 / 4)).val = 3 / 4 := by decide +kernel
  have v1 : (FP.ofRat b32 false (1 / 8)).val = 1 / 8 := by decide +kernel
  have v2 : (FP.ofRat b32 false 0).val = 0 := by decide +kernel
  refine ⟨⟨by decide +kernel, by decide +kernel, by decide +kernel, by decide +kernel⟩, ?_⟩
  unfold exact Spec.midpoint
  simp only [v0, v1, v2]
  norm_num

end D10
