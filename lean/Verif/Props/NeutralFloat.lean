import Verif.SpecAccuracy
import Verif.Props.Accuracy
import Verif.Props.BlendLawsFloat
import Verif.Props.InvertAgain

/-!
# C148: settings that should change nothing, with 32-bit numbers

With exact numbers the brightness 0 and the contrast 1 change nothing (`C70_neutral`).  With 32-bit numbers the contrast 1 can
change dark channels.
-/

namespace D10
open Spec
open Scalar (lit)

/-- The steps of 2⁻²⁵. -/
def Spec.OnFineGrid (q : ℚ) : Prop := ∃ n : ℤ, q = n / 33554432

/-- All colour channels are multiples of 2⁻²⁵. -/
def Spec.FineCol (c : Col F32) : Prop := OnFineGrid c.c0.val ∧ OnFineGrid c.c1.val ∧ OnFineGrid c.c2.val

theorem fine_rep {q : ℚ} (h : OnFineGrid q) (h1 : |q| ≤ 1 / 2) : IsRep b32 q := by
  obtain ⟨n, rfl⟩ := h
  rw [abs_div, abs_of_pos (show (0 : ℚ) < 33554432 by norm_num), div_le_iff₀ (by norm_num)] at h1
  have n1 : |n| ≤ 16777216 := by
    have : ((|n| : ℤ) : ℚ) ≤ (16777216 : ℤ) := by rw [Int.cast_abs]; norm_num at h1 ⊢; exact h1
    exact_mod_cast this
  rcases lt_or_eq_of_le n1 with l | e
  · refine ⟨n, -25, l, by decide, ?_⟩
    rw [pow2_eq]; norm_num; ring
  · have r : IsRep b32 (pow2 (-1)) := IsRep.pow2 (by decide)
    have p : pow2 (-1) = 1 / 2 := by rw [pow2_eq]; norm_num
    rcases abs_choice n with k | k
    · have : (n : ℚ) / 33554432 = pow2 (-1) := by rw [← k, e, p]; norm_num
      rw [this]; exact r
    · have : (n : ℚ) / 33554432 = -pow2 (-1) := by rw [show n = -16777216 by omega, p]; norm_num
      rw [this]; exact r.neg

/-- From one quarter on every 32-bit number is on the fine grid. -/
theorem quarter_fine {q : ℚ} (h : IsRep b32 q) (h0 : 1 / 4 ≤ |q|) : OnFineGrid q := by
  obtain ⟨m, e, hm, -, rfl⟩ := h
  have hm' : |(m : ℚ)| < 16777216 := by
    have : ((|m| : ℤ) : ℚ) < ((2 ^ 24 : ℤ) : ℚ) := by exact_mod_cast hm
    rw [Int.cast_abs] at this; norm_num at this ⊢; exact this
  by_cases he : -25 ≤ e
  · obtain ⟨k, hk⟩ := Int.eq_ofNat_of_zero_le (show 0 ≤ e + 25 by omega)
    refine ⟨m * 2 ^ k, ?_⟩
    have : e = (k : ℤ) - 25 := by omega
    rw [this, pow2_sub, pow2_nat, pow2_eq]
    push_cast; ring
  · exfalso
    have p : pow2 e ≤ pow2 (-26) := pow2_le (by omega)
    have p0 := pow2_pos e
    rw [show pow2 (-26) = 1 / 67108864 by rw [pow2_eq]; norm_num] at p
    rw [abs_mul, abs_of_pos p0] at h0
    have := abs_nonneg (m : ℚ)
    nlinarith

/-- Down by one half and up again: on the fine grid, and unchanged there. -/
theorem down_up {q : ℚ} (h : IsRep b32 q) (h0 : 0 ≤ q) (h1 : q ≤ 1) :
    |rn b32 (q - 1 / 2)| ≤ 1 / 2 ∧ 0 ≤ rn b32 (rn b32 (q - 1 / 2) + 1 / 2) ∧ rn b32 (rn b32 (q - 1 / 2) + 1 / 2) ≤ 1 ∧
    OnFineGrid (rn b32 (rn b32 (q - 1 / 2) + 1 / 2)) ∧
    (OnFineGrid q → rn b32 (rn b32 (q - 1 / 2) + 1 / 2) = q) := by
  have keep : OnFineGrid q → rn b32 (q - 1 / 2) = q - 1 / 2 := by
    intro g
    refine rn_rep (fine_rep ?_ (by rw [abs_le]; constructor <;> linarith))
    obtain ⟨n, rfl⟩ := g
    exact ⟨n - 16777216, by push_cast; ring⟩
  have back : OnFineGrid q → rn b32 (rn b32 (q - 1 / 2) + 1 / 2) = q := by
    intro g
    rw [keep g, show q - 1 / 2 + 1 / 2 = q by ring, rn_rep h]
  rcases le_total (1 / 4) q with k | k
  · have g := quarter_fine h (by rw [abs_of_nonneg h0]; exact k)
    rw [back g, keep g]
    exact ⟨by rw [abs_le]; constructor <;> linarith, h0, h1, g, fun _ => rfl⟩
  · have r2 : IsRep b32 (-(1 / 2)) := by
      have : (-(1 / 2) : ℚ) = -pow2 (-1) := by rw [pow2_eq]; norm_num
      rw [this]; exact (IsRep.pow2 (by decide)).neg
    have r4 : IsRep b32 (-(1 / 4)) := by
      have : (-(1 / 4) : ℚ) = -pow2 (-2) := by rw [pow2_eq]; norm_num
      rw [this]; exact (IsRep.pow2 (by decide)).neg
    have d0 := rep_le_rn (q := q - 1 / 2) r2 (by linarith)
    have d1 := rn_le_rep (q := q - 1 / 2) r4 (by linarith)
    obtain ⟨n, hn⟩ := quarter_fine (rn_isRep b32 (q - 1 / 2)) (by rw [abs_of_nonpos (by linarith)]; linarith)
    have g : OnFineGrid (rn b32 (q - 1 / 2) + 1 / 2) := ⟨n + 16777216, by rw [hn]; push_cast; ring⟩
    have e := rn_rep (fine_rep g (by rw [abs_le]; constructor <;> linarith))
    refine ⟨by rw [abs_le]; constructor <;> linarith, ?_, ?_, ?_, back⟩
    · rw [e]; linarith
    · rw [e]; linarith
    · rw [e]; exact g

section
variable [Libm b32]

theorem half_lit : (lit 0.5 : F32).fin = true ∧ (lit 0.5 : F32).val = 1 / 2 := by
  have : (FP.ofRat b32 false 0.5).fin = true ∧ (FP.ofRat b32 false 0.5).val = 1 / 2 := by decide +kernel
  exact this

/-- The contrast 1 for one channel. -/
theorem contrast_one {v t : F32} (hv : Chan v) (ht : t.fin = true) (t1 : t.val = 1) :
    (clamp01 ((v -. lit 0.5) *. t +. lit 0.5) : F32).fin = true ∧
    (clamp01 ((v -. lit 0.5) *. t +. lit 0.5) : F32).val = rn b32 (rn b32 (v.val - 1 / 2) + 1 / 2) := by
  obtain ⟨a, b, d, -, -⟩ := down_up (FP.fin_rep hv.1).1 hv.2.1 hv.2.2
  have s : (v -. lit 0.5 : F32).fin = true ∧ (v -. lit 0.5 : F32).val = rn b32 (v.val - 1 / 2) := by
    have e : (v -. lit 0.5 : F32) = FP.ofRat b32 (v.isNeg && (lit 0.5 : F32).neg.isNeg) (v.val - 1 / 2) := by
      show FP.sub v (lit 0.5) = _
      rw [FP.sub_fin hv.1 half_lit.1, half_lit.2]
    rw [e]
    have := FP.ofRat_unit (s := v.isNeg && (lit 0.5 : F32).neg.isNeg) (q := v.val - 1 / 2)
      (by rw [abs_le]; constructor <;> linarith [hv.2.1, hv.2.2])
    exact ⟨this.1, this.2.1⟩
  obtain ⟨m0, m1⟩ := times_full s.1 ht t1
  rw [s.2] at m1
  have p : ((v -. lit 0.5) *. t +. lit 0.5 : F32).fin = true ∧
      ((v -. lit 0.5) *. t +. lit 0.5 : F32).val = rn b32 (rn b32 (v.val - 1 / 2) + 1 / 2) := by
    have e : ((v -. lit 0.5) *. t +. lit 0.5 : F32) =
        FP.ofRat b32 (((v -. lit 0.5) *. t : F32).isNeg && (lit 0.5 : F32).isNeg) (rn b32 (v.val - 1 / 2) + 1 / 2) := by
      show FP.add _ (lit 0.5) = _
      rw [FP.add_fin m0 half_lit.1, half_lit.2, m1]
    rw [e]
    rw [abs_le] at a
    have := FP.ofRat_unit (s := ((v -. lit 0.5) *. t : F32).isNeg && (lit 0.5 : F32).isNeg)
      (q := rn b32 (v.val - 1 / 2) + 1 / 2) (by rw [abs_le]; constructor <;> linarith [a.1, a.2])
    exact ⟨this.1, this.2.1⟩
  obtain ⟨k0, k1⟩ := NearF.clamp_fin p.1
  refine ⟨k0, ?_⟩
  rw [k1, p.2, min_eq_right d, max_eq_right b]

theorem contrast_chan {v t : F32} (hv : Chan v) (ht : t.fin = true) (t1 : t.val = 1) :
    Chan (clamp01 ((v -. lit 0.5) *. t +. lit 0.5) : F32) ∧ OnFineGrid (clamp01 ((v -. lit 0.5) *. t +. lit 0.5) : F32).val ∧
    ((clamp01 ((v -. lit 0.5) *. t +. lit 0.5) : F32).val = v.val ↔ OnFineGrid v.val) := by
  obtain ⟨a, b, d, g, k⟩ := down_up (FP.fin_rep hv.1).1 hv.2.1 hv.2.2
  obtain ⟨e0, e1⟩ := contrast_one hv ht t1
  refine ⟨⟨e0, by rw [e1]; exact b, by rw [e1]; exact d⟩, by rw [e1]; exact g, ?_⟩
  rw [e1]
  exact ⟨fun e => e ▸ g, k⟩

omit [Libm b32] in
theorem exact_iff {c d : Col F32} (ha : c.alpha = d.alpha) :
    exact c = exact d ↔ c.c0.val = d.c0.val ∧ c.c1.val = d.c1.val ∧ c.c2.val = d.c2.val := by
  constructor
  · intro e
    have e0 : (c.c0.val : ℝ) = d.c0.val := congrArg Col.c0 e
    have e1 : (c.c1.val : ℝ) = d.c1.val := congrArg Col.c1 e
    have e2 : (c.c2.val : ℝ) = d.c2.val := congrArg Col.c2 e
    exact ⟨by exact_mod_cast e0, by exact_mod_cast e1, by exact_mod_cast e2⟩
  · rintro ⟨e0, e1, e2⟩
    simp only [exact, e0, e1, e2, ha]

/-- **Brightness 0** changes nothing. -/
theorem C148_brightness (c : Col F32) (h : UnitCol c) {z : F32} (hz : z.fin = true) (z0 : z.val = 0) :
    exact (Rgb.with_brightness c z) = exact c := by
  have key : ∀ {v : F32}, Chan v → (clamp01 (v +. z) : F32).val = v.val := by
    intro v hv
    obtain ⟨r, l⟩ := FP.fin_rep hv.1
    have e : (v +. z : F32) = FP.ofRat b32 (v.isNeg && z.isNeg) v.val := by
      show FP.add v z = _
      rw [FP.add_fin hv.1 hz, z0, add_zero]
    obtain ⟨a, b⟩ := FP.ofRat_rep (s := v.isNeg && z.isNeg) r l
    rw [← e] at a b
    rw [(NearF.clamp_fin a).2, b, min_eq_right hv.2.2, max_eq_right hv.2.1]
  exact (exact_iff (c := Rgb.with_brightness c z) (d := c) rfl).2 ⟨key h.c0, key h.c1, key h.c2⟩

/-- **Contrast 1** changes nothing exactly when the channels are multiples of 2⁻²⁵. -/
theorem C148_contrast (c : Col F32) (h : UnitCol c) {t : F32} (ht : t.fin = true) (t1 : t.val = 1) :
    exact (Rgb.with_contrast c t) = exact c ↔ FineCol c := by
  refine (exact_iff (c := Rgb.with_contrast c t) (d := c) rfl).trans ?_
  exact and_congr (contrast_chan h.c0 ht t1).2.2 (and_congr (contrast_chan h.c1 ht t1).2.2 (contrast_chan h.c2 ht t1).2.2)

/-- **Contrast 1 with light colours**: channels of at least one quarter are not changed. -/
theorem C148_contrast_light (c : Col F32) (h : UnitCol c) {t : F32} (ht : t.fin = true) (t1 : t.val = 1)
    (l0 : 1 / 4 ≤ c.c0.val) (l1 : 1 / 4 ≤ c.c1.val) (l2 : 1 / 4 ≤ c.c2.val) :
    exact (Rgb.with_contrast c t) = exact c :=
  (C148_contrast c h ht t1).2
    ⟨quarter_fine (FP.fin_rep h.c0.1).1 (l0.trans (le_abs_self _)), quarter_fine (FP.fin_rep h.c1.1).1 (l1.trans (le_abs_self _)),
      quarter_fine (FP.fin_rep h.c2.1).1 (l2.trans (le_abs_self _))⟩

/-- **Contrast 1 again** changes nothing more. -/
theorem C148_contrast_again (c : Col F32) (h : UnitCol c) {t : F32} (ht : t.fin = true) (t1 : t.val = 1) :
    exact (Rgb.with_contrast (Rgb.with_contrast c t) t) = exact (Rgb.with_contrast c t) := by
  have k0 := contrast_chan h.c0 ht t1
  have k1 := contrast_chan h.c1 ht t1
  have k2 := contrast_chan h.c2 ht t1
  exact (C148_contrast (Rgb.with_contrast c t) ⟨k0.1, k1.1, k2.1, h.alpha⟩ ht t1).2 ⟨k0.2.1, k1.2.1, k2.2.1⟩

/-- **Brightness 0 together with contrast 1** is the same as contrast 1. -/
theorem C148_both (c : Col F32) (h : UnitCol c) {z t : F32} (hz : z.fin = true) (z0 : z.val = 0) (ht : t.fin = true) (t1 : t.val = 1) :
    exact (Rgb.with_brightness_contrast c z t) = exact (Rgb.with_contrast c t) := by
  have key : ∀ {v : F32}, Chan v → (clamp01 ((v +. z -. lit 0.5) *. t +. lit 0.5) : F32).val =
      (clamp01 ((v -. lit 0.5) *. t +. lit 0.5) : F32).val := by
    intro v hv
    obtain ⟨r, l⟩ := FP.fin_rep hv.1
    have e : (v +. z : F32) = FP.ofRat b32 (v.isNeg && z.isNeg) v.val := by
      show FP.add v z = _
      rw [FP.add_fin hv.1 hz, z0, add_zero]
    obtain ⟨a, b⟩ := FP.ofRat_rep (s := v.isNeg && z.isNeg) r l
    rw [← e] at a b
    have hv' : Chan (v +. z : F32) := ⟨a, by rw [b]; exact hv.2.1, by rw [b]; exact hv.2.2⟩
    rw [(contrast_one hv' ht t1).2, (contrast_one hv ht t1).2, b]
  exact (exact_iff (c := Rgb.with_brightness_contrast c z t) (d := Rgb.with_contrast c t) rfl).2 ⟨key h.c0, key h.c1, key h.c2⟩

end

/-- **Contrast 1 changes dark colours**: the gray of a byte picture next to black. -/
theorem C148_contrast_dark (lib : Libm b32) : letI := lib
    exact (Rgb.with_contrast (⟨darkest, darkest, darkest, darkest⟩ : Col F32) (lit 1)) ≠ exact ⟨darkest, darkest, darkest, darkest⟩ := by
  let _ := lib
  intro e
  have u : UnitCol (⟨darkest, darkest, darkest, darkest⟩ : Col F32) := ⟨darkest_chan, darkest_chan, darkest_chan, darkest_chan⟩
  obtain ⟨⟨n, hn⟩, -⟩ := (C148_contrast _ u FP.lit1.1 FP.lit1.2).1 e
  have k : (darkest.val * 33554432).den ≠ 1 := by decide +kernel
  refine k ?_
  have : darkest.val * 33554432 = (n : ℚ) := by
    have hn' : darkest.val = n / 33554432 := hn
    rw [hn']; field_simp
  rw [this]; rfl

/-- Non-vacuity: a colour in the range, and the two settings. -/
example : UnitCol (⟨darkest, darkest, darkest, darkest⟩ : Col F32) ∧
    (FP.ofRat b32 false 0).fin = true ∧ (FP.ofRat b32 false 0).val = 0 ∧ (FP.ofRat b32 false 1).fin = true ∧ (FP.ofRat b32 false 1).val = 1 :=
  ⟨⟨darkest_chan, darkest_chan, darkest_chan, darkest_chan⟩, FP.lit0.1, FP.lit0.2, FP.lit1.1, FP.lit1.2⟩

end D10
