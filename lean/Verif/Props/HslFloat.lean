import Verif.Lemmas.HslTrip
import Verif.Props.Accuracy

/-!
# HSL conversions in the program's own floats (C28)
-/

namespace D10
open Spec
open Scalar (lit)

variable [Libm b32]

/-- A channel at least EPSILON below the greatest is told so. -/
theorem not_near {x y : F32} (hx : In01 x) (hy : In01 y) (h : 1 / 32768 ≤ (x.val : ℝ) - y.val) :
    1 / 32768 ≤ ((x -. y : F32).val : ℝ) := by
  have h' : (1 / 32768 : ℚ) ≤ x.val - y.val := by
    have : ((1 / 32768 : ℚ) : ℝ) ≤ ((x.val - y.val : ℚ) : ℝ) := by push_cast; exact h
    exact_mod_cast this
  have one : IsRep b32 1 ∧ (1 : ℚ) < pow2 b32.emax := by
    have := FP.int_finite (f := b32) 1 (by decide)
    simp only [Int.cast_one, abs_one] at this; exact this
  have hb : |x.val - y.val| ≤ 1 := abs_le.2 ⟨by linarith [hx.2.1, hy.2.2], by linarith [hx.2.2, hy.2.1]⟩
  have e : (x -. y : F32).val = rn b32 (x.val - y.val) := by
    show (FP.sub x y).val = _
    rw [FP.sub_fin hx.1 hy.1, (FP.ofRat_of_le one.1 one.2 hb).2]
  rw [e]
  have r : IsRep b32 (1 / 32768) := by
    have := (FP.fin_rep FP.epsilon.1).1
    rwa [FP.epsilon.2] at this
  have := rep_le_rn r h'
  have g : ((1 / 32768 : ℚ) : ℝ) ≤ ((rn b32 (x.val - y.val) : ℚ) : ℝ) := by exact_mod_cast this
  push_cast at g; exact g

theorem clamp_self32 {x : F32} (h : In01 x) : clamp01 x = x := by
  have l0 : (Scalar.lit 0 : F32).fin = true ∧ (Scalar.lit 0 : F32).val = 0 := FP.lit0
  have l1 : (Scalar.lit 1 : F32).fin = true ∧ (Scalar.lit 1 : F32).val = 1 := FP.lit1
  unfold clamp01 Scalar.clamp
  have c0 : Scalar.lt x (Scalar.lit 0 : F32) = false := by
    show FP.lt x _ = _; rw [FP.lt_fin h.1 l0.1, l0.2]; simp [h.2.1]
  have c1 : Scalar.lt (Scalar.lit 1 : F32) x = false := by
    show FP.lt _ x = _; rw [FP.lt_fin l1.1 h.1, l1.2]; simp [h.2.2]
  simp [c0, c1]

theorem clamp_close {x : F32} {q e : ℝ} (h : Close x q e) (h0 : 0 ≤ q) (h1 : q ≤ 1) : Close (clamp01 x) q e := by
  have := (NearF.clamp (x := x) (q := q) (e := e) (B := 1) ⟨h, by rw [abs_of_nonneg h0]; exact h1⟩).close
  rwa [min_eq_right h1, max_eq_right h0] at this

/-- The round trip of a nearly gray colour gives its lightness three times. -/
theorem hsl_gray {c : Col F32} (h : UnitCol c) (hd : ((Rgb.max c -. Rgb.min c) <. EPSILON) = true) :
    Hsl.to_rgb (Rgb.to_hsl c) =
      Rgb.new_with_alpha ((Rgb.max c +. Rgb.min c) /. lit 2) ((Rgb.max c +. Rgb.min c) /. lit 2)
        ((Rgb.max c +. Rgb.min c) /. lit 2) c.alpha ∧
    Close ((Rgb.max c +. Rgb.min c) /. lit 2) (((Rgb.max c).val + (Rgb.min c).val) / 2) (2 / 16777216) ∧
    ((Rgb.max c).val : ℝ) - (Rgb.min c).val ≤ 1 / 32768 := by
  obtain ⟨hM, M0, -⟩ := max32 h
  obtain ⟨hm, m0, -⟩ := min32 h
  refine ⟨?_, ?_, ?_⟩
  · unfold Rgb.to_hsl
    simp only
    rw [if_pos hd]
    unfold Hsl.to_rgb
    simp only
    rw [if_pos]
    show FP.eq (FP.ofRat b32 false 0) (FP.ofRat b32 false 0) = true
    rw [FP.eq_fin FP.lit0.1 FP.lit0.1, decide_eq_true rfl]
  · exact (((NearF.add_rel hM hm).mono (d := 2 / 16777216) (B := 2) (by linarith [hM.real.2, hm.real.2])
      (by linarith [hM.real.2, hm.real.2])).div 1 (by norm_num) NearF.two
      (m := 2) (by norm_num) (by norm_num) (by norm_num)).is rfl (by norm_num)
  · by_contra hc
    have := not_near hM hm (not_le.1 hc).le
    rw [below_eps hM hm] at hd
    linarith

/-- C28, the program's own floats: every in-range colour comes back from HSL with each channel within
EPSILON + 1/100000, and with the same alpha. -/
theorem C28_hsl_float (c : Col F32) (h : UnitCol c) :
    CloseCol (1 / 32768 + 1 / 100000) (to_rgb .hsl (to_hsl .rgb c)) (exact c) ∧
    (to_rgb .hsl (to_hsl .rgb c)).alpha = c.alpha := by
  show CloseCol _ (Hsl.to_rgb (Rgb.to_hsl c)) _ ∧ (Hsl.to_rgb (Rgb.to_hsl c)).alpha = _
  obtain ⟨hM, M0, M1, M2, -⟩ := max32 h
  obtain ⟨hm, m0, m1, m2, -⟩ := min32 h
  have U0 : In01 c.c0 := h.c0
  have U1 : In01 c.c1 := h.c1
  have U2 : In01 c.c2 := h.c2
  have U3 : In01 c.alpha := h.alpha
  have al : Close (clamp01 c.alpha) (c.alpha.val : ℝ) (1 / 32768 + 1 / 100000) := by
    rw [clamp_self32 U3]; exact close_self U3.1 (by norm_num)
  by_cases hd : ((Rgb.max c -. Rgb.min c) <. EPSILON) = true
  · obtain ⟨e, hl, hg⟩ := hsl_gray h hd
    rw [e]
    have go : ∀ {x : F32}, In01 x → (x.val : ℝ) ≤ (Rgb.max c).val → ((Rgb.min c).val : ℝ) ≤ x.val →
        Close (clamp01 ((Rgb.max c +. Rgb.min c) /. lit 2)) x.val (1 / 32768 + 1 / 100000) := by
      intro x hx h1 h2
      apply clamp_close _ hx.real.1 hx.real.2
      refine ⟨hl.fin, ?_⟩
      have := abs_le.1 hl.err
      rw [abs_le]; constructor <;> linarith
    exact ⟨⟨go U0 M0 m0, go U1 M1 m1, go U2 M2 m2, al⟩, clamp_self32 U3⟩
  · obtain ⟨R, G, B, e, hR, hG, hB⟩ := hsl_trip h hd
    rw [e]
    have go : ∀ {x y : F32}, In01 x → (x.val : ℝ) ≤ (Rgb.max c).val →
        (Close y x.val (1 / 100000) ∨
          (Scalar.abs (Rgb.max c -. x) <. EPSILON) = true ∧ Close y (Rgb.max c).val (1 / 100000)) →
        Close (clamp01 y) x.val (1 / 32768 + 1 / 100000) := by
      intro x y hx h1 hy
      apply clamp_close _ hx.real.1 hx.real.2
      rcases hy with hy | ⟨hn, hy⟩
      · exact hy.mono (by norm_num)
      · refine ⟨hy.fin, ?_⟩
        have e := abs_sub32 hM hx h1
        rw [lt_real e.1 eps32.1, eps32.2, e.2] at hn
        have : ((Rgb.max c).val : ℝ) - x.val ≤ 1 / 32768 := by
          by_contra hc
          have := not_near hM hx (not_le.1 hc).le
          linarith
        have := abs_le.1 hy.err
        rw [abs_le]; constructor <;> linarith
    exact ⟨⟨go U0 M0 hR, go U1 M1 hG, clamp_close (hB.mono (by norm_num)) U2.real.1 U2.real.2, al⟩, clamp_self32 U3⟩

/-- C28, the program's own floats: a colour that is gray or not nearly gray, and whose red and green are
the greatest channel or not nearly so, comes back from HSL within 1/100000, and equals (`==`) the
original. -/
theorem C28_hsl_float_apart (c : Col F32) (h : UnitCol c) (M m : ℚ)
    (hM : M = max c.c0.val (max c.c1.val c.c2.val)) (hm : m = min c.c0.val (min c.c1.val c.c2.val))
    (hd : M = m ∨ 1 / 32768 ≤ M - m)
    (hr : c.c0.val = M ∨ 1 / 32768 ≤ M - c.c0.val) (hg : c.c1.val = M ∨ 1 / 32768 ≤ M - c.c1.val) :
    CloseCol (1 / 100000) (to_rgb .hsl (to_hsl .rgb c)) (exact c) ∧
    Col.eq (to_rgb .hsl (to_hsl .rgb c)) c = true := by
  have key : CloseCol (1 / 100000) (Hsl.to_rgb (Rgb.to_hsl c)) (exact c) := by
    obtain ⟨iM, M0, M1, M2, Mc⟩ := max32 h
    obtain ⟨im, m0, m1, m2, mc⟩ := min32 h
    have U0 : In01 c.c0 := h.c0
    have U1 : In01 c.c1 := h.c1
    have U2 : In01 c.c2 := h.c2
    have U3 : In01 c.alpha := h.alpha
    have al : Close (clamp01 c.alpha) (c.alpha.val : ℝ) (1 / 100000) := by
      rw [clamp_self32 U3]; exact close_self U3.1 (by norm_num)
    have vM : M = (Rgb.max c).val := by
      have a0 : c.c0.val ≤ (Rgb.max c).val := by exact_mod_cast M0
      have a1 : c.c1.val ≤ (Rgb.max c).val := by exact_mod_cast M1
      have a2 : c.c2.val ≤ (Rgb.max c).val := by exact_mod_cast M2
      rw [hM]; apply le_antisymm (max_le a0 (max_le a1 a2))
      rcases Mc with e | e | e <;> rw [e] <;> simp
    have vm : m = (Rgb.min c).val := by
      have a0 : (Rgb.min c).val ≤ c.c0.val := by exact_mod_cast m0
      have a1 : (Rgb.min c).val ≤ c.c1.val := by exact_mod_cast m1
      have a2 : (Rgb.min c).val ≤ c.c2.val := by exact_mod_cast m2
      rw [hm]; refine le_antisymm ?_ (le_min a0 (le_min a1 a2))
      rcases mc with e | e | e <;> rw [e] <;> simp
    rw [vM, vm] at hd
    rw [vM] at hr hg
    by_cases hd' : ((Rgb.max c -. Rgb.min c) <. EPSILON) = true
    · obtain ⟨e, hl, -⟩ := hsl_gray h hd'
      rw [e]
      have heq : ((Rgb.max c).val : ℝ) = (Rgb.min c).val := by
        rcases hd with e | e
        · exact_mod_cast e
        · have : (1 / 32768 : ℝ) ≤ ((Rgb.max c).val : ℝ) - (Rgb.min c).val := by
            have : ((1 / 32768 : ℚ) : ℝ) ≤ (((Rgb.max c).val - (Rgb.min c).val : ℚ) : ℝ) := by exact_mod_cast e
            push_cast at this; exact this
          have := not_near iM im this
          rw [below_eps iM im] at hd'
          linarith
      have go : ∀ {x : F32}, In01 x → (x.val : ℝ) ≤ (Rgb.max c).val → ((Rgb.min c).val : ℝ) ≤ x.val →
          Close (clamp01 ((Rgb.max c +. Rgb.min c) /. lit 2)) x.val (1 / 100000) := by
        intro x hx h1 h2
        apply clamp_close _ hx.real.1 hx.real.2
        refine ⟨hl.fin, ?_⟩
        have := abs_le.1 hl.err
        rw [abs_le]; constructor <;> linarith
      exact ⟨go U0 M0 m0, go U1 M1 m1, go U2 M2 m2, al⟩
    · obtain ⟨R, G, B, e, hR, hG, hB⟩ := hsl_trip h hd'
      rw [e]
      have go : ∀ {x y : F32}, In01 x → (x.val : ℝ) ≤ (Rgb.max c).val →
          (x.val = (Rgb.max c).val ∨ 1 / 32768 ≤ (Rgb.max c).val - x.val) →
          (Close y x.val (1 / 100000) ∨
            (Scalar.abs (Rgb.max c -. x) <. EPSILON) = true ∧ Close y (Rgb.max c).val (1 / 100000)) →
          Close (clamp01 y) x.val (1 / 100000) := by
        intro x y hx h1 ha hy
        apply clamp_close _ hx.real.1 hx.real.2
        rcases hy with hy | ⟨hn, hy⟩
        · exact hy
        · rcases ha with ha | ha
          · rw [ha]; exact hy
          · exfalso
            have e := abs_sub32 iM hx h1
            rw [lt_real e.1 eps32.1, eps32.2, e.2] at hn
            have : (1 / 32768 : ℝ) ≤ ((Rgb.max c).val : ℝ) - x.val := by
              have : ((1 / 32768 : ℚ) : ℝ) ≤ (((Rgb.max c).val - x.val : ℚ) : ℝ) := by exact_mod_cast ha
              push_cast at this; exact this
            have := not_near iM hx this
            linarith
      exact ⟨go U0 M0 hr hR, go U1 M1 hg hG, clamp_close hB U2.real.1 U2.real.2, al⟩
  refine ⟨key, ?_⟩
  exact eq_of_close (b := 0) key ⟨h.c0.1, h.c1.1, h.c2.1, h.alpha.1⟩ (by simp [exact]) (by simp [exact])
    (by simp [exact]) (by simp [exact]) (by norm_num)

/-- An orange meets the hypotheses. -/
example : Col.eq (to_rgb .hsl (to_hsl .rgb (⟨lit 1, lit 0.5, lit 0, lit 1⟩ : Col F32))) ⟨lit 1, lit 0.5, lit 0, lit 1⟩ = true := by
  have e1 : (FP.ofRat b32 false 1).fin = true ∧ (FP.ofRat b32 false 1).val = 1 := FP.lit1
  have e0 : (FP.ofRat b32 false 0).fin = true ∧ (FP.ofRat b32 false 0).val = 0 := FP.lit0
  have eh : (FP.ofRat b32 false 0.5).fin = true ∧ (FP.ofRat b32 false 0.5).val = 0.5 := by decide +kernel
  refine (C28_hsl_float_apart ⟨FP.ofRat b32 false 1, FP.ofRat b32 false 0.5, FP.ofRat b32 false 0, FP.ofRat b32 false 1⟩ ?_ 1 0
    ?_ ?_ ?_ ?_ ?_).2
  · constructor <;> simp only [e1, e0, eh] <;> norm_num
  all_goals (try simp only [e1.2, e0.2, eh.2]); norm_num

/-- A colour whose red is just less than EPSILON below its green. -/
def nearTie : Col F32 :=
  ⟨FP.ofRat b32 false (3393297/4194304), FP.ofRat b32 false (13573699/16777216),
   FP.ofRat b32 false (4534997/67108864), FP.ofRat b32 false 1⟩

/-- C28, the program's own floats: with rounding the round trip is not always equal (`==`) to the
original. Red is taken for the greatest channel, and rounding adds to the error of EPSILON. -/
theorem C28_hsl_float_not_eq :
    ∃ c : Col F32, UnitCol c ∧ Col.eq (to_rgb .hsl (to_hsl .rgb c)) c = false := by
  refine ⟨nearTie, ?_, ?_⟩
  · constructor <;> unfold nearTie <;> decide +kernel
  · have add_def : ∀ x y : F32, (x +. y) = FP.add x y := fun _ _ => rfl
    have sub_def : ∀ x y : F32, (x -. y) = FP.sub x y := fun _ _ => rfl
    have mul_def : ∀ x y : F32, (x *. y) = FP.mul x y := fun _ _ => rfl
    have div_def : ∀ x y : F32, (x /. y) = FP.div x y := fun _ _ => rfl
    have lt_def : ∀ x y : F32, (x <. y) = FP.lt x y := fun _ _ => rfl
    have eq_def : ∀ x y : F32, (x ==. y) = FP.eq x y := fun _ _ => rfl
    have abs_def : ∀ x : F32, Scalar.abs x = FP.abs x := fun _ => rfl
    have lit_def : ∀ q : ℚ, (lit q : F32) = FP.ofRat b32 false q := fun _ => rfl
    have nan_def : ∀ x : F32, Scalar.isNan x = !(FP.eq x x) := fun _ => rfl
    show Col.eq (Hsl.to_rgb (Rgb.to_hsl nearTie)) nearTie = false
    unfold Col.eq Hsl.to_rgb Rgb.to_hsl Hsl.hue2rgb Rgb.new_with_alpha clamp01 Scalar.clamp Rgb.max Rgb.min EPSILON
    simp only [List.foldl, Scalar.max, Scalar.min, add_def, sub_def, mul_def, div_def, lt_def, eq_def, abs_def,
      lit_def, nan_def]
    unfold nearTie
    decide +kernel

end D10
