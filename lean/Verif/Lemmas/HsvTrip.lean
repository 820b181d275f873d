import Verif.Lemmas.HslTrip

/-! # The round trip through HSV in binary32 -/

namespace D10
open Spec
open Scalar (lit)

theorem wheel_add_one {t : ℝ} (h0 : -1 ≤ t) (h1 : t ≤ 1) : wheel (t + 1) = wheel t := by
  rcases le_total t 0 with h | h
  · rw [wheel_succ h0 h]
  · rw [wheel_pred (by linarith) (by linarith), add_sub_cancel_right]

theorem wheel_red {k : ℝ} (h0 : -1 ≤ k) (h1 : k ≤ 1) :
    wheel (k / 6 + 1 / 3) = 1 ∧ wheel (k / 6) = max 0 k ∧ wheel (k / 6 - 1 / 3) = max 0 (-k) := by
  refine ⟨wheel_top (by linarith) (by linarith), ?_, ?_⟩
  · rcases le_total k 0 with h | h
    · rw [max_eq_left h, wheel_succ (by linarith) (by linarith), wheel_none (by linarith) (by linarith)]
    · rw [max_eq_right h, wheel_up (by linarith) (by linarith)]; ring
  · rcases le_total k 0 with h | h
    · rw [max_eq_right (by linarith), wheel_succ (by linarith) (by linarith),
        wheel_down (by linarith) (by linarith)]; ring
    · rw [max_eq_left (by linarith), wheel_succ (by linarith) (by linarith),
        wheel_none (by linarith) (by linarith)]

/-- The shares of the three channels in sector `i`, at `f` of it. -/
theorem wheel_sector (i : ℕ) {f : ℝ} (h0 : 0 ≤ f) (h1 : f ≤ 1) :
    (i = 0 → wheel ((i + f) / 6 + 1 / 3) = 1 ∧ wheel ((i + f) / 6) = f ∧ wheel ((i + f) / 6 - 1 / 3) = 0) ∧
    (i = 1 → wheel ((i + f) / 6 + 1 / 3) = 1 - f ∧ wheel ((i + f) / 6) = 1 ∧ wheel ((i + f) / 6 - 1 / 3) = 0) ∧
    (i = 2 → wheel ((i + f) / 6 + 1 / 3) = 0 ∧ wheel ((i + f) / 6) = 1 ∧ wheel ((i + f) / 6 - 1 / 3) = f) ∧
    (i = 3 → wheel ((i + f) / 6 + 1 / 3) = 0 ∧ wheel ((i + f) / 6) = 1 - f ∧ wheel ((i + f) / 6 - 1 / 3) = 1) ∧
    (i = 4 → wheel ((i + f) / 6 + 1 / 3) = f ∧ wheel ((i + f) / 6) = 0 ∧ wheel ((i + f) / 6 - 1 / 3) = 1) ∧
    (i = 5 → wheel ((i + f) / 6 + 1 / 3) = 1 ∧ wheel ((i + f) / 6) = 0 ∧ wheel ((i + f) / 6 - 1 / 3) = 1 - f) := by
  refine ⟨?_, ?_, ?_, ?_, ?_, ?_⟩ <;> rintro rfl <;> push_cast
  · obtain ⟨a, b, c⟩ := wheel_red (k := f) (by linarith) h1
    rw [max_eq_right h0] at b
    rw [max_eq_left (by linarith)] at c
    rw [zero_add]; exact ⟨a, b, c⟩
  · obtain ⟨a, b, c⟩ := wheel_green (k := f - 1) (by linarith) (by linarith)
    rw [max_eq_right (by linarith)] at a
    rw [max_eq_left (by linarith)] at c
    rw [show f - 1 + 2 = 1 + f by ring] at a b c
    exact ⟨by rw [a]; ring, b, c⟩
  · obtain ⟨a, b, c⟩ := wheel_green (k := f) (by linarith) h1
    rw [max_eq_left (by linarith)] at a
    rw [max_eq_right (by linarith)] at c
    rw [show f + 2 = 2 + f by ring] at a b c
    exact ⟨a, b, c⟩
  · obtain ⟨a, b, c⟩ := wheel_blue (k := f - 1) (by linarith) (by linarith)
    rw [max_eq_left (by linarith)] at a
    rw [max_eq_right (by linarith)] at b
    rw [show f - 1 + 4 = 3 + f by ring] at a b c
    exact ⟨a, by rw [b]; ring, c⟩
  · obtain ⟨a, b, c⟩ := wheel_blue (k := f) (by linarith) h1
    rw [max_eq_right (by linarith)] at a
    rw [max_eq_left (by linarith)] at b
    rw [show f + 4 = 4 + f by ring] at a b c
    exact ⟨a, b, c⟩
  · obtain ⟨a, b, c⟩ := wheel_red_neg (k := f - 1) (by linarith) (by linarith)
    rw [show f - 1 + 6 = 5 + f by ring] at a b c
    exact ⟨a, b, by rw [c]; ring⟩

/-! ## Back from HSV -/

/-- A float below 360 is at most the one before it, and a sixtieth of it stays below 6. -/
theorem sixtieth_lt {q : ℚ} (h : IsRep b32 q) (h0 : 0 ≤ q) (h1 : q < 360) : rn b32 (q / 60) < 6 := by
  have r : IsRep b32 (12582911 / 2097152) := ⟨12582911, -21, by decide, by decide, by
    rw [pow2_eq]; norm_num⟩
  refine lt_of_le_of_lt (rn_le_rep r ?_) (by norm_num)
  rcases le_or_gt 256 q with hq | hq
  · have : q ≤ 360 - 1 / 32768 := by
      obtain ⟨m, e, hm, he, rfl⟩ := h
      have hp : b32.prec = 24 := rfl
      rw [hp] at hm
      have e1 : -15 ≤ e := by
        by_contra hc
        have : pow2 e ≤ pow2 (-16) := pow2_le (by omega)
        have h2 : (pow2 (-16) : ℚ) = 1 / 65536 := by rw [pow2_eq]; norm_num
        rw [h2] at this
        have hm' : (m : ℚ) ≤ 16777215 := by
          have := (abs_lt.1 hm).2
          have : m ≤ 16777215 := by omega
          exact_mod_cast this
        have p0 := pow2_pos e
        have : (m : ℚ) * pow2 e ≤ 16777215 * (1 / 65536) := by
          rcases le_total 0 m with hm0 | hm0
          · exact mul_le_mul hm' this p0.le (by norm_num)
          · have : (m : ℚ) * pow2 e ≤ 0 := mul_nonpos_of_nonpos_of_nonneg (by exact_mod_cast hm0) p0.le
            linarith
        norm_num at this; linarith
      obtain ⟨z, hz⟩ := pow2_int (show 0 ≤ e - (-15) by omega)
      have e2 : pow2 e = z * (1 / 32768) := by
        rw [← hz, show (1 / 32768 : ℚ) = pow2 (-15) by rw [pow2_eq]; norm_num, ← pow2_add]
        congr 1; ring
      rw [e2] at h1 ⊢
      have : m * z < 360 * 32768 := by
        have : (m : ℚ) * z < 360 * 32768 := by linarith
        exact_mod_cast this
      have : m * z ≤ 360 * 32768 - 1 := by omega
      have : (m : ℚ) * z ≤ 360 * 32768 - 1 := by exact_mod_cast this
      linarith
    linarith
  · linarith

theorem ofRat_fin_val {s : Bool} {q : ℚ} (h : (FP.ofRat b32 s q).fin = true) : (FP.ofRat b32 s q).val = rn b32 q := by
  by_cases hb : |rn b32 q| < pow2 b32.emax
  · exact (FP.ofRat_val hb).2
  · exfalso
    unfold FP.ofRat at h
    simp only at h
    split at h
    · rename_i h0
      rw [h0, abs_zero] at hb
      exact hb (pow2_pos _)
    · rename_i h0
      simp [FP.fin] at h

variable [Libm b32]

theorem le_real {x y : F32} (hx : x.fin = true) (hy : y.fin = true) :
    (x <=. y) = true ↔ (x.val : ℝ) ≤ y.val := by
  rw [FP.le_fin hx hy, decide_eq_true_iff]; exact_mod_cast Iff.rfl

theorem lit_nat (n : ℕ) (B : ℝ) (hn : n ≤ 512) (hB : (n : ℝ) ≤ B) : NearF (lit (n : ℚ) : F32) n 0 B := by
  have h := FP.int_finite (f := b32) n (by have : b32.prec = 24 := rfl; rw [this, abs_of_nonneg (by omega)]; omega)
  have := NearF.lit_rep (B := B) (n : ℚ) (FP.ofRat_rep (by exact_mod_cast h.1) (by exact_mod_cast h.2)) (by
    rw [abs_of_nonneg (by positivity)]; exact_mod_cast hB)
  exact_mod_cast this

/-- The part of `Hsv::to_rgb` after the hue is a sector position. hsv.rs L97-119 -/
def hsvBody (hh s v a : F32) : Col F32 :=
  let i := Scalar.asU32 hh
  let ff := hh -. Scalar.ofNat i
  let p := v *. (lit 1 -. s)
  let q := v *. (lit 1 -. (s *. ff))
  let t := v *. (lit 1 -. (s *. (lit 1 -. ff)))
  match i with
  | 0 => Rgb.new_with_alpha v t p a
  | 1 => Rgb.new_with_alpha q v p a
  | 2 => Rgb.new_with_alpha p v t a
  | 3 => Rgb.new_with_alpha p q v a
  | 4 => Rgb.new_with_alpha t p v a
  | _ => Rgb.new_with_alpha v p q a

theorem hsv_sector {hh : F32} (hf : hh.fin = true) (h0 : 0 ≤ hh.val) (h6 : hh.val < 6) :
    Scalar.asU32 hh ≤ 5 ∧ ((Scalar.asU32 hh : ℕ) : ℝ) ≤ hh.val ∧ (hh.val : ℝ) ≤ (Scalar.asU32 hh : ℕ) + 1 := by
  have e : Scalar.asU32 hh = ⌊hh.val⌋.toNat := by
    show (FP.toInt 0 4294967295 hh).toNat = _
    rw [FP.toInt_fin _ _ hf]
    have t : FP.trunc hh.val = ⌊hh.val⌋ := by unfold FP.trunc; rw [if_neg (not_lt.2 h0)]
    have l : ⌊hh.val⌋ < 6 := by rw [Int.floor_lt]; exact_mod_cast h6
    have l0 : 0 ≤ ⌊hh.val⌋ := Int.floor_nonneg.2 h0
    rw [t, min_eq_right (by omega), max_eq_right l0]
  have l : ⌊hh.val⌋ < 6 := by rw [Int.floor_lt]; exact_mod_cast h6
  have l0 : 0 ≤ ⌊hh.val⌋ := Int.floor_nonneg.2 h0
  have c : ((⌊hh.val⌋.toNat : ℕ) : ℚ) = (⌊hh.val⌋ : ℚ) := by exact_mod_cast Int.toNat_of_nonneg l0
  rw [e]
  refine ⟨by omega, ?_, ?_⟩
  · have : ((⌊hh.val⌋.toNat : ℕ) : ℚ) ≤ hh.val := by rw [c]; exact Int.floor_le _
    exact_mod_cast this
  · have : hh.val ≤ ((⌊hh.val⌋.toNat : ℕ) : ℚ) + 1 := by rw [c]; exact (Int.lt_floor_add_one _).le
    exact_mod_cast this

theorem hsvBody_near {hh s v a : F32} {σ : ℝ} (hf : hh.fin = true) (h0 : 0 ≤ hh.val) (h6 : hh.val < 6)
    (hs : NearF s σ (4 / 16777216) 1) (σ0 : 0 ≤ σ) (hv : In01 v) :
    ∃ R G B : F32, hsvBody hh s v a = Rgb.new_with_alpha R G B a ∧
      Close R (v.val * (1 - σ) + (v.val - v.val * (1 - σ)) * wheel ((hh.val : ℝ) / 6 + 1 / 3)) (16 / 16777216) ∧
      Close G (v.val * (1 - σ) + (v.val - v.val * (1 - σ)) * wheel ((hh.val : ℝ) / 6)) (16 / 16777216) ∧
      Close B (v.val * (1 - σ) + (v.val - v.val * (1 - σ)) * wheel ((hh.val : ℝ) / 6 - 1 / 3)) (16 / 16777216) := by
  obtain ⟨i5, i0, i1⟩ := hsv_sector hf h0 h6
  have hσ1 : σ ≤ 1 := (le_abs_self _).trans hs.le
  set i := Scalar.asU32 hh with hi
  have i5' : (i : ℝ) ≤ 5 := by exact_mod_cast i5
  have h0' : 0 ≤ (hh.val : ℝ) := by exact_mod_cast h0
  have h6' : (hh.val : ℝ) ≤ 6 := by exact_mod_cast h6.le
  have nh : NearF hh hh.val 0 6 := NearF.of_fin hf (by rw [abs_of_nonneg h0']; exact h6')
  have ff : NearF (hh -. Scalar.ofNat i) ((hh.val : ℝ) - i) (1 / 33554432) 1 :=
    (nh.sub' (C := 1) 0 (by norm_num) (lit_nat i 5 (by omega) i5')
      (by rw [abs_le]; constructor <;> linarith) (by norm_num)).mono (by norm_num) le_rfl
  have nv := NearF.unit hv
  obtain ⟨v0, v1⟩ := hv.real
  set F := (hh.val : ℝ) - i with hF
  have F0 : 0 ≤ F := by linarith
  have F1 : F ≤ 1 := by linarith
  have hp : Close (v *. (lit 1 -. s)) (v.val * (1 - σ)) (16 / 16777216) :=
    (nv.mul 1 (by norm_num) (NearF.one.sub' (C := 1) 1 (by norm_num) hs
      (by rw [abs_le]; constructor <;> linarith) (by norm_num)) (by norm_num)).is rfl (by norm_num)
  have sf := hs.mul 1 (by norm_num) ff (by norm_num)
  have sF0 : 0 ≤ σ * F := mul_nonneg σ0 F0
  have sF1 : σ * F ≤ 1 := by nlinarith
  have hq : Close (v *. (lit 1 -. (s *. (hh -. Scalar.ofNat i)))) (v.val * (1 - σ * F)) (16 / 16777216) :=
    (nv.mul 1 (by norm_num) (NearF.one.sub' (C := 1) 1 (by norm_num) sf
      (by rw [abs_le]; constructor <;> linarith) (by norm_num)) (by norm_num)).is rfl (by norm_num)
  have g1 := NearF.one.sub' (C := 1) 1 (by norm_num) ff (by rw [abs_le]; constructor <;> linarith) (by norm_num)
  have sg := hs.mul 1 (by norm_num) g1 (by norm_num)
  have sG0 : 0 ≤ σ * (1 - F) := mul_nonneg σ0 (by linarith)
  have sG1 : σ * (1 - F) ≤ 1 := by nlinarith
  have ht : Close (v *. (lit 1 -. (s *. (lit 1 -. (hh -. Scalar.ofNat i))))) (v.val * (1 - σ * (1 - F))) (16 / 16777216) :=
    (nv.mul 1 (by norm_num) (NearF.one.sub' (C := 1) 1 (by norm_num) sg
      (by rw [abs_le]; constructor <;> linarith) (by norm_num)) (by norm_num)).is rfl (by norm_num)
  have hvv : Close v v.val (16 / 16777216) := ⟨hv.1, by rw [sub_self, abs_zero]; norm_num⟩
  have hsum : (hh.val : ℝ) = i + F := by rw [hF]; ring
  obtain ⟨w0, w1, w2, w3, w4, w5⟩ := wheel_sector i F0 F1
  rw [← hsum] at w0 w1 w2 w3 w4 w5
  unfold hsvBody
  simp only [← hi]
  clear_value i
  have : i = 0 ∨ i = 1 ∨ i = 2 ∨ i = 3 ∨ i = 4 ∨ i = 5 := by omega
  rcases this with h | h | h | h | h | h
  · obtain ⟨a1, a2, a3⟩ := w0 h
    rw [a1, a2, a3]; subst h
    exact ⟨_, _, _, rfl, hvv.congr (by ring), ht.congr (by ring), hp.congr (by ring)⟩
  · obtain ⟨a1, a2, a3⟩ := w1 h
    rw [a1, a2, a3]; subst h
    exact ⟨_, _, _, rfl, hq.congr (by ring), hvv.congr (by ring), hp.congr (by ring)⟩
  · obtain ⟨a1, a2, a3⟩ := w2 h
    rw [a1, a2, a3]; subst h
    exact ⟨_, _, _, rfl, hp.congr (by ring), hvv.congr (by ring), ht.congr (by ring)⟩
  · obtain ⟨a1, a2, a3⟩ := w3 h
    rw [a1, a2, a3]; subst h
    exact ⟨_, _, _, rfl, hp.congr (by ring), hq.congr (by ring), hvv.congr (by ring)⟩
  · obtain ⟨a1, a2, a3⟩ := w4 h
    rw [a1, a2, a3]; subst h
    exact ⟨_, _, _, rfl, ht.congr (by ring), hp.congr (by ring), hvv.congr (by ring)⟩
  · obtain ⟨a1, a2, a3⟩ := w5 h
    rw [a1, a2, a3]; subst h
    exact ⟨_, _, _, rfl, hvv.congr (by ring), hp.congr (by ring), hq.congr (by ring)⟩

/-- Back from HSV, for a hue near `T` and a saturation near `σ`. -/
theorem hsv_back {hue s v a : F32} {T σ : ℝ} (hh : Close hue T (5 / 16777216)) (h0 : 0 ≤ hue.val) (T1 : T ≤ 1 + 3 / 16777216)
    (hs : NearF s σ (4 / 16777216) 1) (σ0 : 0 ≤ σ) (hv : In01 v) (hpos : ¬ (s <=. lit 0) = true) :
    ∃ R G B : F32, Hsv.to_rgb ⟨hue, s, v, a⟩ = Rgb.new_with_alpha R G B a ∧
      Close R (v.val * (1 - σ) + (v.val - v.val * (1 - σ)) * wheel (T + 1 / 3)) (1 / 200000) ∧
      Close G (v.val * (1 - σ) + (v.val - v.val * (1 - σ)) * wheel T) (1 / 200000) ∧
      Close B (v.val * (1 - σ) + (v.val - v.val * (1 - σ)) * wheel (T - 1 / 3)) (1 / 200000) := by
  have herr := abs_le.1 hh.err
  have h0' : 0 ≤ (hue.val : ℝ) := by exact_mod_cast h0
  have nh : NearF hue T (5 / 16777216) 1.001 := ⟨hh, by rw [abs_le]; constructor <;> linarith⟩
  have l360 := lit_nat 360 360 (by norm_num) (by norm_num)
  have l60 := lit_nat 60 60 (by norm_num) (by norm_num)
  have nh' := nh.mul 9 (by norm_num) l360 (by norm_num)
  push_cast at nh' l360 l60
  have v360 : (lit 360 : F32).val = 360 := by
    have := abs_nonpos_iff.1 l360.close.err
    have : ((lit 360 : F32).val : ℝ) = 360 := by linarith
    exact_mod_cast this
  have v60 : (lit 60 : F32).val = 60 := by
    have := abs_nonpos_iff.1 l60.close.err
    have : ((lit 60 : F32).val : ℝ) = 60 := by linarith
    exact_mod_cast this
  have hσ1 : σ ≤ 1 := (le_abs_self _).trans hs.le
  obtain ⟨v0, v1⟩ := hv.real
  -- the sector position
  have key : ∃ (y : F32) (T' : ℝ), Hsv.to_rgb ⟨hue, s, v, a⟩ = hsvBody y s v a ∧ y.fin = true ∧ 0 ≤ y.val ∧ y.val < 6 ∧
      |(y.val : ℝ) - 6 * T'| ≤ 60 / 16777216 ∧ wheel (T' + 1 / 3) = wheel (T + 1 / 3) ∧ wheel T' = wheel T ∧
      wheel (T' - 1 / 3) = wheel (T - 1 / 3) := by
    by_cases c : (lit 360 <=. hue *. lit 360) = true
    · refine ⟨lit 0 /. lit 60, T - 1, ?_, ?_⟩
      · unfold Hsv.to_rgb hsvBody
        simp only [if_neg hpos, if_pos c]
        generalize Scalar.asU32 (lit 0 /. lit 60 : F32) = i
        rcases i with _ | _ | _ | _ | _ | i <;> rfl
      · have g : (FP.div (FP.ofRat b32 false 0) (FP.ofRat b32 false 60)).fin = true ∧
          (FP.div (FP.ofRat b32 false 0) (FP.ofRat b32 false 60)).val = 0 := by decide +kernel
        rw [le_real l360.close.fin nh'.close.fin, v360] at c
        have e := abs_le.1 nh'.close.err
        push_cast at c
        norm_num at e
        have T0 : 1 - 7 / 16777216 ≤ T := by linarith
        refine ⟨g.1, g.2.ge, by rw [show (lit 0 /. lit 60 : F32).val = 0 from g.2]; norm_num, ?_, ?_, ?_, ?_⟩
        · rw [show (lit 0 /. lit 60 : F32).val = 0 from g.2, abs_le]; push_cast; constructor <;> linarith
        · rw [← wheel_add_one (t := T - 1 + 1 / 3) (by linarith) (by linarith)]; congr 1; ring
        · rw [← wheel_add_one (t := T - 1) (by linarith) (by linarith)]; congr 1; ring
        · rw [← wheel_add_one (t := T - 1 - 1 / 3) (by linarith) (by linarith)]; congr 1; ring
    · refine ⟨hue *. lit 360 /. lit 60, T, ?_, ?_⟩
      · unfold Hsv.to_rgb hsvBody
        simp only [if_neg hpos, if_neg c]
        generalize Scalar.asU32 (hue *. lit 360 /. lit 60 : F32) = i
        rcases i with _ | _ | _ | _ | _ | i <;> rfl
      · rw [le_real l360.close.fin nh'.close.fin, v360, not_le] at c
        have d := nh'.div 3 (by norm_num) l60 (m := 60) (by norm_num) (by norm_num) (by norm_num)
        have x0 : 0 ≤ (hue *. lit 360 : F32).val := by
          have hf := nh'.close.fin
          have e : (hue *. lit 360 : F32) = FP.ofRat b32 (hue.isNeg ^^ (lit 360 : F32).isNeg) (hue.val * 360) := by
            show FP.mul hue (lit 360) = _
            rw [FP.mul_fin nh.close.fin l360.close.fin, v360]
          rw [e] at hf ⊢
          rw [ofRat_fin_val hf]
          exact rn_nonneg (mul_nonneg h0 (by norm_num))
        have y : (hue *. lit 360 /. lit 60 : F32).val = rn b32 ((hue *. lit 360 : F32).val / 60) := by
          have hf := d.close.fin
          have e : (hue *. lit 360 /. lit 60 : F32) = FP.ofRat b32 ((hue *. lit 360 : F32).isNeg ^^ (lit 60 : F32).isNeg)
              ((hue *. lit 360 : F32).val / 60) := by
            show FP.div (hue *. lit 360) (lit 60) = _
            rw [FP.div_fin nh'.close.fin l60.close.fin (by rw [v60]; norm_num), v60]
          rw [e] at hf ⊢
          exact ofRat_fin_val hf
        refine ⟨d.close.fin, ?_, ?_, ?_, rfl, rfl, rfl⟩
        · rw [y]; exact rn_nonneg (div_nonneg x0 (by norm_num))
        · rw [y]
          exact sixtieth_lt (FP.fin_rep nh'.close.fin).1 x0 (by exact_mod_cast c)
        · refine le_trans (le_of_eq ?_) (d.close.err.trans (by norm_num))
          congr 1; ring
  obtain ⟨y, T', e1, e2, e3, e4, e5, e6, e7, e8⟩ := key
  obtain ⟨R, G, B, b1, b2, b3, b4⟩ := hsvBody_near (a := a) e2 e3 e4 hs σ0 hv
  have P1 : v.val * (1 - σ) ≤ (v.val : ℝ) := by nlinarith
  have P2 : (v.val : ℝ) - v.val * (1 - σ) ≤ 1 := by nlinarith
  have lip : ∀ z : ℝ, |wheel ((y.val : ℝ) / 6 + z) - wheel (T' + z)| ≤ 60 / 16777216 := by
    intro z
    refine (wheel_lip _ _).trans ?_
    rw [show (y.val : ℝ) / 6 + z - (T' + z) = (y.val - 6 * T') / 6 by ring, abs_div]
    norm_num at e5 ⊢
    linarith
  refine ⟨R, G, B, by rw [e1, b1], ?_, ?_, ?_⟩
  · rw [← e6]; exact (mix_close P1 P2 b2 (lip _)).mono (by norm_num)
  · rw [← e7]; exact (mix_close P1 P2 b3 (by simpa using lip 0)).mono (by norm_num)
  · rw [← e8]; exact (mix_close P1 P2 b4 (by simpa [sub_eq_add_neg] using lip (-(1 / 3)))).mono (by norm_num)

/-- The hue computed by `to_hsv` from a sector number. -/
theorem hsv_hue {k : F32} {K : ℝ} (hk : NearF k K (8 / 16777216) 5) (K0 : -1 ≤ K) :
    ∃ T : ℝ, Close ((if k *. lit 60 <. lit 0 then k *. lit 60 +. lit 360 else k *. lit 60) /. lit 360) T (5 / 16777216) ∧
      0 ≤ ((if k *. lit 60 <. lit 0 then k *. lit 60 +. lit 360 else k *. lit 60) /. lit 360 : F32).val ∧
      T ≤ 1 + 3 / 16777216 ∧ wheel (T + 1 / 3) = wheel (K / 6 + 1 / 3) ∧ wheel T = wheel (K / 6) ∧
      wheel (T - 1 / 3) = wheel (K / 6 - 1 / 3) := by
  have l360 := lit_nat 360 360 (by norm_num) (by norm_num)
  have l60 := lit_nat 60 60 (by norm_num) (by norm_num)
  have m := hk.mul 9 (by norm_num) l60 (by norm_num)
  push_cast at m l360 l60
  have K5 : K ≤ 5 := (le_abs_self _).trans hk.le
  have l0 : (lit 0 : F32).fin = true ∧ ((lit 0 : F32).val : ℝ) = 0 := by
    have : (lit 0 : F32) = FP.zero false := FP.ofRat_zero false
    rw [this]; exact ⟨rfl, by simp [FP.val]⟩
  have v360 : (lit 360 : F32).val = 360 := by
    have := abs_nonpos_iff.1 l360.close.err
    have : ((lit 360 : F32).val : ℝ) = 360 := by linarith
    exact_mod_cast this
  have me := abs_le.1 m.close.err
  norm_num at me
  have pos : ∀ {x : F32} (_ : x.fin = true) (_ : (x /. lit 360 : F32).fin = true), 0 ≤ x.val → 0 ≤ (x /. lit 360 : F32).val := by
    intro x hx hf h0
    have e : (x /. lit 360 : F32) = FP.ofRat b32 (x.isNeg ^^ (lit 360 : F32).isNeg) (x.val / 360) := by
      show FP.div x (lit 360) = _
      rw [FP.div_fin hx l360.close.fin (by rw [v360]; norm_num), v360]
    rw [e] at hf ⊢
    rw [ofRat_fin_val hf]
    exact rn_nonneg (div_nonneg h0 (by norm_num))
  by_cases c : (k *. lit 60 <. lit 0) = true
  · simp only [if_pos c]
    rw [lt_real m.close.fin l0.1, l0.2] at c
    have a := m.add 10 (by norm_num) l360 (by norm_num)
    have d := a.div 1 (by norm_num) l360 (m := 360) (by norm_num) (by norm_num) (by norm_num)
    refine ⟨(K * 60 + 360) / 360, d.is rfl (by norm_num), ?_, ?_, ?_, ?_, ?_⟩
    · apply pos a.close.fin d.close.fin
      have hf := a.close.fin
      have e : (k *. lit 60 +. lit 360 : F32) = FP.ofRat b32 ((k *. lit 60 : F32).isNeg && (lit 360 : F32).isNeg)
          ((k *. lit 60 : F32).val + 360) := by
        show FP.add (k *. lit 60) (lit 360) = _
        rw [FP.add_fin m.close.fin l360.close.fin, v360]
      rw [e] at hf ⊢
      rw [ofRat_fin_val hf]
      apply rn_nonneg
      have : (0 : ℝ) ≤ ((k *. lit 60 : F32).val : ℝ) + 360 := by linarith
      exact_mod_cast this
    · linarith
    · rw [← wheel_add_one (t := K / 6 + 1 / 3) (by linarith) (by linarith)]; congr 1; ring
    · rw [← wheel_add_one (t := K / 6) (by linarith) (by linarith)]; congr 1; ring
    · rw [← wheel_add_one (t := K / 6 - 1 / 3) (by linarith) (by linarith)]; congr 1; ring
  · simp only [if_neg c]
    rw [lt_real m.close.fin l0.1, l0.2, not_lt] at c
    have d := m.div 1 (by norm_num) l360 (m := 360) (by norm_num) (by norm_num) (by norm_num)
    refine ⟨K / 6, d.is (by ring) (by norm_num), pos m.close.fin d.close.fin (by exact_mod_cast c), by linarith,
      rfl, rfl, rfl⟩

set_option maxHeartbeats 1000000 in
/-- The round trip through HSV of a colour that is not gray and not nearly black. -/
theorem hsv_trip {c : Col F32} (h : UnitCol c)
    (hc : ((EPSILON <=. (Rgb.max c -. Rgb.min c)) || (EPSILON <=. Rgb.max c)) = true)
    (hne : ((Rgb.min c).val : ℝ) < (Rgb.max c).val) :
    (((Rgb.to_hsv c).c1 <=. lit 0) = false →
      ∃ R G B : F32, Hsv.to_rgb (Rgb.to_hsv c) = Rgb.new_with_alpha R G B c.alpha ∧
      Close R c.c0.val (1 / 200000) ∧ Close G c.c1.val (1 / 200000) ∧ Close B c.c2.val (1 / 200000)) ∧
    (((Rgb.to_hsv c).c1 <=. lit 0) = true →
      Hsv.to_rgb (Rgb.to_hsv c) = ⟨Rgb.max c, Rgb.max c, Rgb.max c, c.alpha⟩ ∧
      ((Rgb.max c).val : ℝ) - (Rgb.min c).val ≤ 1 / 200000) := by
  obtain ⟨hM, M0, M1, M2, Mc⟩ := max32 h
  obtain ⟨hm, m0, m1, m2, mc⟩ := min32 h
  have dl := NearF.sub_rel hM hm
  rw [abs_of_pos (by linarith)] at dl
  have U0 : In01 c.c0 := h.c0
  have U1 : In01 c.c1 := h.c1
  have U2 : In01 c.c2 := h.c2
  set M := Rgb.max c with hMd
  set m := Rgb.min c with hmd
  set D := (M.val : ℝ) - m.val with hD
  have Dp : 0 < D := by linarith
  have Mp : 0 < (M.val : ℝ) := by linarith [hm.real.1]
  have hs : NearF ((M -. m) /. M) (D / M.val) (4 / 16777216) 1 :=
    NearF.ratio Mp (dl.mono (by linarith [hm.real.1]) (by linarith [hm.real.1]))
      ⟨⟨hM.1, by rw [sub_self, abs_zero]; positivity⟩, by rw [abs_of_pos Mp]⟩
  have tohsv : Rgb.to_hsv c = ⟨(if (if M <=. c.c0 then (c.c1 -. c.c2) /. (M -. m)
      else if M <=. c.c1 then lit 2 +. (c.c2 -. c.c0) /. (M -. m)
      else lit 4 +. (c.c0 -. c.c1) /. (M -. m)) *. lit 60 <. lit 0 then
        (if M <=. c.c0 then (c.c1 -. c.c2) /. (M -. m)
      else if M <=. c.c1 then lit 2 +. (c.c2 -. c.c0) /. (M -. m)
      else lit 4 +. (c.c0 -. c.c1) /. (M -. m)) *. lit 60 +. lit 360 else
        (if M <=. c.c0 then (c.c1 -. c.c2) /. (M -. m)
      else if M <=. c.c1 then lit 2 +. (c.c2 -. c.c0) /. (M -. m)
      else lit 4 +. (c.c0 -. c.c1) /. (M -. m)) *. lit 60) /. lit 360, (M -. m) /. M, M, c.alpha⟩ := by
    unfold Rgb.to_hsv
    simp only
    rw [if_pos hc]
  rw [tohsv]
  simp only
  refine ⟨?_, ?_⟩
  · intro hpos
    have kap : ∀ {x y : F32}, In01 x → In01 y → (x.val : ℝ) ≤ M.val → (y.val : ℝ) ≤ M.val → (m.val : ℝ) ≤ x.val →
        (m.val : ℝ) ≤ y.val → NearF ((x -. y) /. (M -. m)) (((x.val : ℝ) - y.val) / D) (4 / 16777216) 1 ∧
          -1 ≤ ((x.val : ℝ) - y.val) / D ∧ ((x.val : ℝ) - y.val) / D ≤ 1 ∧
          D * (((x.val : ℝ) - y.val) / D) = x.val - y.val := by
      intro x y hx hy a b c' d'
      refine ⟨sector_near hx hy hM hm (by linarith) (by rw [abs_le]; constructor <;> linarith), ?_, ?_, ?_⟩
      · rw [le_div_iff₀ Dp]; linarith
      · rw [div_le_iff₀ Dp]; linarith
      · rw [mul_div_cancel₀ _ Dp.ne']
    have eP : (M.val : ℝ) * (1 - D / M.val) = m.val := by
      rw [mul_sub, mul_div_cancel₀ _ Mp.ne', hD]; ring
    have go : ∀ (k : F32) (K : ℝ), NearF k K (8 / 16777216) 5 → -1 ≤ K →
        ∃ R G B : F32, Hsv.to_rgb ⟨(if k *. lit 60 <. lit 0 then k *. lit 60 +. lit 360 else k *. lit 60) /. lit 360,
          (M -. m) /. M, M, c.alpha⟩ = Rgb.new_with_alpha R G B c.alpha ∧
          Close R (m.val + D * wheel (K / 6 + 1 / 3)) (1 / 200000) ∧
          Close G (m.val + D * wheel (K / 6)) (1 / 200000) ∧
          Close B (m.val + D * wheel (K / 6 - 1 / 3)) (1 / 200000) := by
      intro k K hk K0
      obtain ⟨T, t1, t2, t3, t4, t5, t6⟩ := hsv_hue hk K0
      obtain ⟨R, G, B, b1, b2, b3, b4⟩ := hsv_back (a := c.alpha) t1 t2 t3 hs (by positivity) hM (by rw [hpos]; simp)
      rw [eP, t4] at b2
      rw [eP, t5] at b3
      rw [eP, t6] at b4
      exact ⟨R, G, B, b1, b2, b3, b4⟩
    have Mc' : (M.val : ℝ) = c.c0.val ∨ (M.val : ℝ) = c.c1.val ∨ (M.val : ℝ) = c.c2.val := by exact_mod_cast Mc
    have mc' : (m.val : ℝ) = c.c0.val ∨ (m.val : ℝ) = c.c1.val ∨ (m.val : ℝ) = c.c2.val := by exact_mod_cast mc
    by_cases hr : (M <=. c.c0) = true
    · simp only [if_pos hr]
      rw [le_real hM.1 U0.1] at hr
      have hX : (c.c0.val : ℝ) = M.val := le_antisymm M0 hr
      obtain ⟨k1, k2, k3, k4⟩ := kap U1 U2 M1 M2 m1 m2
      set K := ((c.c1.val : ℝ) - c.c2.val) / D with hK
      obtain ⟨R, G, B, b1, b2, b3, b4⟩ := go _ K (k1.mono (by norm_num) (by norm_num)) k2
      obtain ⟨w1, w2, w3⟩ := wheel_red k2 k3
      rw [w1] at b2; rw [w2] at b3; rw [w3] at b4
      refine ⟨R, G, B, b1, b2.congr (by rw [hX, hD]; ring), b3.congr ?_, b4.congr ?_⟩
      · rcases le_total K 0 with h' | h'
        · have : (c.c1.val : ℝ) ≤ c.c2.val := by nlinarith
          have hm2 : (m.val : ℝ) = c.c1.val := by rcases mc' with e | e | e <;> linarith
          rw [max_eq_left (by linarith)]; linear_combination hm2
        · have : (c.c2.val : ℝ) ≤ c.c1.val := by nlinarith
          have hm2 : (m.val : ℝ) = c.c2.val := by rcases mc' with e | e | e <;> linarith
          rw [max_eq_right (by linarith)]; linear_combination hm2 + k4
      · rcases le_total K 0 with h' | h'
        · have : (c.c1.val : ℝ) ≤ c.c2.val := by nlinarith
          have hm2 : (m.val : ℝ) = c.c1.val := by rcases mc' with e | e | e <;> linarith
          rw [max_eq_right (by linarith)]; linear_combination hm2 - k4
        · have : (c.c2.val : ℝ) ≤ c.c1.val := by nlinarith
          have hm2 : (m.val : ℝ) = c.c2.val := by rcases mc' with e | e | e <;> linarith
          rw [max_eq_left (by linarith)]; linear_combination hm2
    · simp only [if_neg hr]
      rw [le_real hM.1 U0.1, not_le] at hr
      by_cases hg : (M <=. c.c1) = true
      · simp only [if_pos hg]
        rw [le_real hM.1 U1.1] at hg
        have hX : (c.c1.val : ℝ) = M.val := le_antisymm M1 hg
        obtain ⟨k1, k2, k3, k4⟩ := kap U2 U0 M2 M0 m2 m0
        set K := ((c.c2.val : ℝ) - c.c0.val) / D with hK
        have kk := (lit_nat 2 2 (by norm_num) (by norm_num)).add 3 (by norm_num) k1 (by norm_num)
        push_cast at kk
        obtain ⟨R, G, B, b1, b2, b3, b4⟩ := go _ (2 + K) (kk.mono (by norm_num) (by norm_num)) (by linarith)
        obtain ⟨w1, w2, w3⟩ := wheel_green k2 k3
        rw [show 2 + K = K + 2 by ring] at b2 b3 b4
        rw [w1] at b2; rw [w2] at b3; rw [w3] at b4
        refine ⟨R, G, B, b1, b2.congr ?_, b3.congr (by rw [hX, hD]; ring), b4.congr ?_⟩
        · rcases le_total K 0 with h' | h'
          · have : (c.c2.val : ℝ) ≤ c.c0.val := by nlinarith
            have hm2 : (m.val : ℝ) = c.c2.val := by rcases mc' with e | e | e <;> linarith
            rw [max_eq_right (by linarith)]; linear_combination hm2 - k4
          · have : (c.c0.val : ℝ) ≤ c.c2.val := by nlinarith
            have hm2 : (m.val : ℝ) = c.c0.val := by rcases mc' with e | e | e <;> linarith
            rw [max_eq_left (by linarith)]; linear_combination hm2
        · rcases le_total K 0 with h' | h'
          · have : (c.c2.val : ℝ) ≤ c.c0.val := by nlinarith
            have hm2 : (m.val : ℝ) = c.c2.val := by rcases mc' with e | e | e <;> linarith
            rw [max_eq_left (by linarith)]; linear_combination hm2
          · have : (c.c0.val : ℝ) ≤ c.c2.val := by nlinarith
            have hm2 : (m.val : ℝ) = c.c0.val := by rcases mc' with e | e | e <;> linarith
            rw [max_eq_right (by linarith)]; linear_combination hm2 + k4
      · simp only [if_neg hg]
        rw [le_real hM.1 U1.1, not_le] at hg
        have hX : (c.c2.val : ℝ) = M.val := by
          rcases Mc' with e | e | e
          · linarith
          · linarith
          · exact e.symm
        obtain ⟨k1, k2, k3, k4⟩ := kap U0 U1 M0 M1 m0 m1
        set K := ((c.c0.val : ℝ) - c.c1.val) / D with hK
        have kk := (lit_nat 4 4 (by norm_num) (by norm_num)).add 3 (by norm_num) k1 (by norm_num)
        push_cast at kk
        obtain ⟨R, G, B, b1, b2, b3, b4⟩ := go _ (4 + K) (kk.mono (by norm_num) (by norm_num)) (by linarith)
        obtain ⟨w1, w2, w3⟩ := wheel_blue k2 k3
        rw [show 4 + K = K + 4 by ring] at b2 b3 b4
        rw [w1] at b2; rw [w2] at b3; rw [w3] at b4
        refine ⟨R, G, B, b1, b2.congr ?_, b3.congr ?_, b4.congr (by rw [hX, hD]; ring)⟩
        · rcases le_total K 0 with h' | h'
          · have : (c.c0.val : ℝ) ≤ c.c1.val := by nlinarith
            have hm2 : (m.val : ℝ) = c.c0.val := by rcases mc' with e | e | e <;> linarith
            rw [max_eq_left (by linarith)]; linear_combination hm2
          · have : (c.c1.val : ℝ) ≤ c.c0.val := by nlinarith
            have hm2 : (m.val : ℝ) = c.c1.val := by rcases mc' with e | e | e <;> linarith
            rw [max_eq_right (by linarith)]; linear_combination hm2 + k4
        · rcases le_total K 0 with h' | h'
          · have : (c.c0.val : ℝ) ≤ c.c1.val := by nlinarith
            have hm2 : (m.val : ℝ) = c.c0.val := by rcases mc' with e | e | e <;> linarith
            rw [max_eq_right (by linarith)]; linear_combination hm2 - k4
          · have : (c.c1.val : ℝ) ≤ c.c0.val := by nlinarith
            have hm2 : (m.val : ℝ) = c.c1.val := by rcases mc' with e | e | e <;> linarith
            rw [max_eq_left (by linarith)]; linear_combination hm2
  · intro hz
    refine ⟨?_, ?_⟩
    · unfold Hsv.to_rgb
      simp only [if_pos hz]
    · have l0 : (lit 0 : F32).fin = true ∧ ((lit 0 : F32).val : ℝ) = 0 := by
        have : (lit 0 : F32) = FP.zero false := FP.ofRat_zero false
        rw [this]; exact ⟨rfl, by simp [FP.val]⟩
      rw [le_real hs.close.fin l0.1, l0.2] at hz
      have e := abs_le.1 hs.close.err
      have : D / M.val ≤ 4 / 16777216 := by linarith
      rw [div_le_iff₀ Mp] at this
      linarith [hM.real.2]

end D10
