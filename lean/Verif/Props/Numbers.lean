import Verif.Lemmas.Numbers

/-!
# Pictures of numbers stay pictures of numbers (C122)

C118 lets "not a number" through. Here it is excluded: with finite arguments no command makes one.
-/

namespace D10
open Scalar (lit)
open Spec

section
variable [Libm b32]

/-! ## Colours -/

theorem lit_bd (q : ℚ) (k : ℕ) (hk : k ≤ 127) (h : |q| ≤ 2 ^ k) : Bd k (lit q : F32) := Bd.ofRat hk h

theorem epsilon_val : (EPSILON : F32).fin = true ∧ (EPSILON : F32).val = 1 / 32768 := by
  show (FP.div (FP.ofRat b32 false 1) (FP.ofRat b32 false 32768)).fin = true ∧
    (FP.div (FP.ofRat b32 false 1) (FP.ofRat b32 false 32768)).val = 1 / 32768
  decide +kernel

theorem hsl_number {c : Col F32} (h : UnitCol c) :
    Bd 17 (Rgb.to_hsl c).c0 ∧
    ((Rgb.to_hsl c).c1.fin = true ∧ 0 ≤ (Rgb.to_hsl c).c1.val ∧ (Rgb.to_hsl c).c1.val ≤ 1) ∧
    ((Rgb.to_hsl c).c2.fin = true ∧ 0 ≤ (Rgb.to_hsl c).c2.val ∧ (Rgb.to_hsl c).c2.val ≤ 1) := by
  have hr := (UnitCol.inRange h).1
  obtain ⟨hM, hm⟩ := extremes_number hr
  refine ⟨?_, hsl_saturation_number hr, ?_⟩
  · unfold Rgb.to_hsl
    simp only
    generalize Rgb.max c = M at *
    generalize Rgb.min c = m at *
    split
    · exact (lit_bd 0 0 (by norm_num) (by norm_num)).mono (by norm_num)
    · rename_i hd
      have d : Bd 1 (FP.sub M m) := (Bd.unit hM).sub (Bd.unit hm) (by norm_num) (by norm_num) (by norm_num)
      have low : 1 / 2 ^ 15 ≤ |(FP.sub M m).val| := by
        refine le_trans ?_ (le_abs_self _)
        by_contra hlt
        refine hd ?_
        show FP.lt (FP.sub M m) EPSILON = true
        rw [FP.lt_fin d.fin epsilon_val.1, epsilon_val.2]
        refine decide_eq_true ?_
        push Not at hlt
        exact lt_of_lt_of_eq hlt (by norm_num)
      have part : ∀ {x y : F32} {n : ℚ}, (x.fin = true ∧ 0 ≤ x.val ∧ x.val ≤ 1) →
          (y.fin = true ∧ 0 ≤ y.val ∧ y.val ≤ 1) → |n| ≤ 2 ^ 3 →
          Bd 17 (FP.div (FP.add (FP.div (FP.sub x y) (FP.sub M m)) (FP.ofRat b32 false n)) (FP.ofRat b32 false 6)) := by
        intro x y n hx hy hn
        refine Bd.div (k := 17) (j := 0) (Bd.add (k := 16) (l := 3) (Bd.div (k := 1) (j := 15) ((Bd.unit hx).sub (Bd.unit hy)
          (by norm_num) (by norm_num) (by norm_num)) d.fin low (by norm_num) (by norm_num))
          (Bd.ofRat (by norm_num) hn) (by norm_num) (by norm_num) (by norm_num)) ?_ ?_ (by norm_num) (by norm_num)
        · decide +kernel
        · rw [show (FP.ofRat b32 false 6).val = 6 by decide +kernel]; norm_num
      show Bd 17 (FP.div (if _ then FP.add (FP.div (FP.sub c.c1 c.c2) (FP.sub M m)) (if _ then _ else _)
        else if _ then _ else _) (FP.ofRat b32 false 6))
      split
      · split
        · exact part h.c1 h.c2 (by norm_num)
        · exact part h.c1 h.c2 (by norm_num)
      · split
        · exact part h.c2 h.c0 (by norm_num)
        · exact part h.c0 h.c1 (by norm_num)
  · have e : (Rgb.to_hsl c).c2 = FP.div (FP.add (Rgb.max c) (Rgb.min c)) (FP.ofRat b32 false 2) := by
      unfold Rgb.to_hsl; simp only; split <;> rfl
    rw [e]
    have up : ∀ {x : F32}, (x.fin = true ∧ 0 ≤ x.val ∧ x.val ≤ 1) → InRange x :=
      fun h => (upto_iff _).2 (.inr h)
    refine unit_of (half_inRange (up hM) (up hm)) ?_
    have s : Bd 1 (FP.add (Rgb.max c) (Rgb.min c)) :=
      (Bd.unit hM).add (Bd.unit hm) (by norm_num) (by norm_num) (by norm_num)
    exact div_number s.number (by decide +kernel) (by decide +kernel)

theorem hue2rgb_number {p q t : F32} (hp : Bd 4 p) (hq : Bd 4 q) (ht : Bd 124 t) :
    Hsl.hue2rgb p q t ≠ .nan := by
  have one : Bd 0 (FP.ofRat b32 false 1) := Bd.ofRat (by norm_num) (by norm_num)
  have go : ∀ {t : F32}, t.fin = true →
      (if t <. lit 1 /. lit 6 then p +. (q -. p) *. lit 6 *. t
        else if t <. lit 1 /. lit 2 then q
        else if t <. lit 2 /. lit 3 then p +. (q -. p) *. (lit 2 /. lit 3 -. t) *. lit 6
        else p) ≠ .nan := by
    intro t ht
    have d : Bd 5 (FP.sub q p) := hq.sub hp (by norm_num) (by norm_num) (by norm_num)
    split
    · exact add_number hp.fin (mul_number (d.mul (m := 8) (Bd.ofRat (k := 3) (by norm_num) (by norm_num)) (by norm_num)
        (by norm_num)).fin ht)
    split
    · exact hq.number
    · rename_i hge
      split
      · rename_i hlt
        have two : (FP.div (FP.ofRat b32 false 2) (FP.ofRat b32 false 3)).fin = true ∧
            |(FP.div (FP.ofRat b32 false 2) (FP.ofRat b32 false 3)).val| ≤ 1 := by decide +kernel
        have half : (FP.div (FP.ofRat b32 false 1) (FP.ofRat b32 false 2)).fin = true ∧
            0 ≤ (FP.div (FP.ofRat b32 false 1) (FP.ofRat b32 false 2)).val := by decide +kernel
        have t0 : 0 ≤ t.val := by
          by_contra hc
          refine hge ?_
          show FP.lt t (FP.div (FP.ofRat b32 false 1) (FP.ofRat b32 false 2)) = true
          rw [FP.lt_fin ht half.1]
          push Not at hc
          exact decide_eq_true (lt_of_lt_of_le hc half.2)
        have t1 : t.val ≤ 1 := by
          change FP.lt t (FP.div (FP.ofRat b32 false 2) (FP.ofRat b32 false 3)) = true at hlt
          rw [FP.lt_fin ht two.1] at hlt
          exact (of_decide_eq_true hlt).le.trans ((le_abs_self _).trans two.2)
        have s : Bd 1 (FP.sub (FP.div (FP.ofRat b32 false 2) (FP.ofRat b32 false 3)) t) :=
          Bd.sub (k := 0) (l := 0) ⟨two.1, by simpa using two.2⟩ (Bd.unit ⟨ht, t0, t1⟩) (by norm_num) (by norm_num)
            (by norm_num)
        exact add_number hp.fin (mul_number (d.mul (m := 6) s (by norm_num) (by norm_num)).fin
          (Bd.ofRat (k := 3) (by norm_num) (by norm_num) : Bd 3 (FP.ofRat b32 false 6)).fin)
      · exact hp.number
  have up : Bd 125 (FP.add t (FP.ofRat b32 false 1)) := ht.add one (by norm_num) (by norm_num) (by norm_num)
  have wrap : ∀ {u : F32}, Bd 125 u → Bd 126 (if lit 1 <. u then u -. lit 1 else u) := by
    intro u hu
    split
    · exact hu.sub one (by norm_num) (by norm_num) (by norm_num)
    · exact hu.mono (by norm_num)
  unfold Hsl.hue2rgb
  simp only
  refine go (wrap ?_).fin
  split
  · exact up
  · exact ht.mono (by norm_num)

theorem hsl_unit {h s l a : F32} (hh : Bd 123 h) (hs : s.fin = true ∧ 0 ≤ s.val ∧ s.val ≤ 1)
    (hl : l.fin = true ∧ 0 ≤ l.val ∧ l.val ≤ 1) (ha : a ≠ .nan) : UnitCol (Hsl.to_rgb ⟨h, s, l, a⟩) := by
  have one : Bd 0 (FP.ofRat b32 false 1) := Bd.ofRat (by norm_num) (by norm_num)
  have third : Bd 0 (FP.div (FP.ofRat b32 false 1) (FP.ofRat b32 false 3)) :=
    ⟨by decide +kernel, by decide +kernel⟩
  unfold Hsl.to_rgb
  simp only
  split
  · exact new_unit (fin_number hl.1) (fin_number hl.1) (fin_number hl.1) ha
  · have hq : Bd 2 (if l <. lit 0.5 then l *. (lit 1 +. s) else l +. s -. l *. s) := by
      split
      · exact (Bd.mul (k := 0) (l := 1) (m := 1) (Bd.unit hl) (one.add (Bd.unit hs) (by norm_num) (by norm_num)
          (by norm_num)) (by norm_num) (by norm_num)).mono (by norm_num)
      · exact Bd.sub (k := 1) (l := 0) ((Bd.unit hl).add (Bd.unit hs) (by norm_num) (by norm_num) (by norm_num))
          ((Bd.unit hl).mul (Bd.unit hs) (by norm_num) (by norm_num)) (by norm_num) (by norm_num) (by norm_num)
    generalize (if l <. lit 0.5 then l *. (lit 1 +. s) else l +. s -. l *. s) = q at hq ⊢
    have hp : Bd 3 (lit 2 *. l -. q) :=
      Bd.sub (k := 1) (l := 2) (Bd.mul (k := 1) (l := 0) (Bd.ofRat (by norm_num) (by norm_num)) (Bd.unit hl) (by norm_num)
        (by norm_num)) hq (by norm_num) (by norm_num) (by norm_num)
    have hp' := hp.mono (m := 4) (by norm_num)
    have hq' := hq.mono (m := 4) (by norm_num)
    exact new_unit
      (hue2rgb_number hp' hq' (hh.add third (by norm_num) (by norm_num) (by norm_num)))
      (hue2rgb_number hp' hq' (hh.mono (by norm_num)))
      (hue2rgb_number hp' hq' (hh.sub third (by norm_num) (by norm_num) (by norm_num))) ha

theorem rotated_number {h p : F32} (hh : Bd 17 h) (hp : p.fin = true) : Bd 123 (Rgb.rotated_hue h p) := by
  have one : Bd 0 (FP.ofRat b32 false 1) := Bd.ofRat (by norm_num) (by norm_num)
  have part : Bd 120 (FP.div p (FP.ofRat b32 false 360)) := by
    have v : (FP.ofRat b32 false 360).fin = true ∧ (FP.ofRat b32 false 360).val = 360 := by decide +kernel
    rw [FP.div_fin hp v.1 (by rw [v.2]; norm_num), v.2]
    refine Bd.ofRat (by norm_num) ?_
    rw [abs_div, div_le_iff₀ (by norm_num)]
    exact (fin_le_largest hp).trans (by norm_num)
  have sum : Bd 121 (FP.add h (FP.div p (FP.ofRat b32 false 360))) :=
    hh.add part (by norm_num) (by norm_num) (by norm_num)
  unfold Rgb.rotated_hue
  simp only
  split
  · exact sum.sub one (by norm_num) (by norm_num) (by norm_num)
  · split
    · exact sum.add one (by norm_num) (by norm_num) (by norm_num)
    · exact sum.mono (by norm_num)

/-! ## `powf` -/

/-- Not "not a number" and not negative. -/
def NonNeg (x : F32) : Prop := x = .inf false ∨ (x.fin = true ∧ 0 ≤ x.val)

omit [Libm b32] in
theorem NonNeg.round {s : Bool} {q : ℚ} (h : 0 ≤ q) : NonNeg (FP.ofRat b32 s q) := by
  have r : 0 ≤ rn b32 q := rn_nonneg h
  unfold FP.ofRat
  split
  · exact .inr ⟨rfl, le_refl _⟩
  split
  · exact .inr ⟨rfl, r⟩
  · left; rw [decide_eq_false (not_lt.2 h)]

omit [Libm b32] in
theorem NonNeg.add {x y : F32} (hx : NonNeg x) (hy : y.fin = true ∧ 0 ≤ y.val) : NonNeg (FP.add x y) := by
  rcases hx with rfl | hx
  · left
    cases y with
    | nan => cases hy.1
    | inf _ => cases hy.1
    | zero _ => rfl
    | num _ _ => rfl
  · rw [FP.add_fin hx.1 hy.1]; exact NonNeg.round (by linarith)

omit [Libm b32] in
theorem NonNeg.div {x y : F32} (hx : NonNeg x) (hy : y.fin = true ∧ 0 < y.val) : NonNeg (FP.div x y) := by
  rcases hx with rfl | hx
  · left
    cases y with
    | nan => cases hy.1
    | inf _ => cases hy.1
    | zero _ => exact absurd hy.2 (by simp [FP.val])
    | num q h => simp [FP.div, FP.isNeg, show ¬ q < 0 from not_lt.2 hy.2.le]
  · rw [FP.div_fin hx.1 hy.1 hy.2.ne']; exact NonNeg.round (div_nonneg hx.2 hy.2.le)

omit [Libm b32] in
theorem NonNeg.number {x : F32} (h : NonNeg x) : x ≠ .nan := by
  rcases h with rfl | h
  · simp
  · exact fin_number h.1

theorem NonNeg.not_lt {x : F32} (h : NonNeg x) : (x <. lit 0) = false := by
  have z : (FP.ofRat b32 false 0).fin = true ∧ (FP.ofRat b32 false 0).val = 0 := by decide +kernel
  show FP.lt x (FP.ofRat b32 false 0) = false
  rcases h with rfl | h
  · exact FP.lt_inf_fin z.1
  · rw [FP.lt_fin h.1 z.1, z.2]; exact decide_eq_false (by linarith [h.2])

theorem powf_number (hp : PowGivesNumbers) {x y : F32} (hx : NonNeg x) (hy : y ≠ .nan) :
    Scalar.powf x y ≠ .nan := hp x y hx.number hx.not_lt hy

omit [Libm b32] in
theorem unit_nonneg {x : F32} (h : x.fin = true ∧ 0 ≤ x.val ∧ x.val ≤ 1) : NonNeg x := .inr ⟨h.1, h.2.1⟩

theorem gamma_to_linear_number (hp : PowGivesNumbers) {v : F32} (hv : v ≠ .nan) : gamma_to_linear v ≠ .nan := by
  unfold gamma_to_linear
  split
  · rename_i h
    change FP.lt (FP.ofRat b32 false 0.04045) v = true at h
    have k : (FP.ofRat b32 false 0.04045).fin = true ∧ 0 ≤ (FP.ofRat b32 false 0.04045).val := by decide +kernel
    have nn : NonNeg v := by
      rcases FP.kinds v with e | ⟨s, rfl⟩ | e
      · exact absurd e hv
      · rw [FP.lt_fin_inf k.1] at h
        cases s
        · exact .inl rfl
        · cases h
      · rw [FP.lt_fin k.1 e] at h
        exact .inr ⟨e, k.2.trans (of_decide_eq_true h).le⟩
    exact powf_number hp ((nn.add (y := FP.ofRat b32 false 0.055) (by decide +kernel)).div
      (y := FP.ofRat b32 false 1.055) (by decide +kernel)) FP.ofRat_not_nan
  · exact div_number hv (y := FP.ofRat b32 false 12.92) (by decide +kernel) (by decide +kernel)

theorem srgb_unit (hp : PowGivesNumbers) {r g b a : F32} (hr : r ≠ .nan) (hg : g ≠ .nan) (hb : b ≠ .nan) (ha : a ≠ .nan) :
    UnitCol (Srgb.to_rgb ⟨r, g, b, a⟩) :=
  new_unit (gamma_to_linear_number hp hr) (gamma_to_linear_number hp hg) (gamma_to_linear_number hp hb) ha

/-! ## Levels -/

theorem level_number (hp : PowGivesNumbers) {p q r v : F32} (fp : p.fin = true) (fq : q.fin = true) (fr : r.fin = true)
    (hv : v.fin = true ∧ 0 ≤ v.val ∧ v.val ≤ 1) : Rgb.level p q r v ≠ .nan := by
  have hf : (if Scalar.abs (q -. p) <. f32_EPSILON then lit 1 /. EPSILON else lit 1 /. (q -. p) : F32).fin = true := by
    split
    · show (FP.div (FP.ofRat b32 false 1) (FP.div (FP.ofRat b32 false 1) (FP.ofRat b32 false 32768))).fin = true
      decide +kernel
    · rename_i h
      change ¬ FP.lt (FP.abs (FP.sub q p)) (FP.ofRat b32 false (1 / 8388608)) = true at h
      show (FP.div (FP.ofRat b32 false 1) (FP.sub q p)).fin = true
      have e : (FP.ofRat b32 false (1 / 8388608)).fin = true ∧
        (FP.ofRat b32 false (1 / 8388608)).val = 1 / 8388608 := by decide +kernel
      rcases FP.kinds (FP.sub q p) with n | ⟨s, n⟩ | n
      · exact absurd n (sub_number fq fp)
      · rw [n]
        cases s <;> decide +kernel
      · rw [FP.lt_fin (FP.abs_fin n).1 e.1, e.2, (FP.abs_fin n).2] at h
        refine (Bd.div (k := 0) (j := 23) (m := 23) (Bd.ofRat (by norm_num) (by norm_num)) n ?_ (by norm_num)
          (by norm_num)).fin
        by_contra hc
        push Not at hc
        exact h (decide_eq_true (lt_of_lt_of_eq hc (by norm_num)))
  have hs : (FP.sub v p).fin = true := small_sub hv.1 fp (by rw [abs_of_nonneg hv.2.1]; exact hv.2.2)
  exact powf_number hp (unit_nonneg (clamp_number (mul_number hs hf))) (recip_number (fin_number fr))

/-- `x.min(1.0).max(0.0)` is a number between 0 and 1, even for "not a number". -/
theorem squeeze_number (x : F32) : (Scalar.max (Scalar.min x (lit 1)) (lit 0)).fin = true ∧
    0 ≤ (Scalar.max (Scalar.min x (lit 1)) (lit 0)).val ∧ (Scalar.max (Scalar.min x (lit 1)) (lit 0)).val ≤ 1 := by
  have o := one32
  have z : (FP.ofRat b32 false 0).fin = true ∧ (FP.ofRat b32 false 0).val = 0 := by decide +kernel
  have n : ∀ q, Scalar.isNan (lit q : F32) = false := fun q => (FP.isNan_false _).2 FP.ofRat_not_nan
  have hy : Scalar.min x (lit 1) ≠ .nan ∧ FP.lt (FP.ofRat b32 false 1) (Scalar.min x (lit 1)) = false := by
    have self : FP.lt (FP.ofRat b32 false 1) (FP.ofRat b32 false 1) = false := by decide +kernel
    unfold Scalar.min
    split
    · exact ⟨FP.ofRat_not_nan, self⟩
    · rename_i h
      rw [n 1]
      simp only [Bool.false_eq_true, if_false]
      split
      · exact ⟨FP.ofRat_not_nan, self⟩
      · rename_i h'
        exact ⟨(FP.isNan_false x).1 (by simpa using h), eq_false_of_ne_true h'⟩
  generalize Scalar.min x (lit 1) = y at hy ⊢
  unfold Scalar.max
  rw [(FP.isNan_false y).2 hy.1, n 0]
  simp only [Bool.false_eq_true, if_false]
  split
  · exact ⟨z.1, z.2.ge, by show (FP.ofRat b32 false 0).val ≤ 1; rw [z.2]; norm_num⟩
  · rename_i h
    change ¬ FP.lt y (FP.ofRat b32 false 0) = true at h
    rcases FP.kinds y with e | ⟨s, rfl⟩ | e
    · exact absurd e hy.1
    · rw [FP.lt_fin_inf o.1] at hy
      rw [FP.lt_inf_fin z.1] at h
      cases s <;> simp_all
    · rw [FP.lt_fin e z.1, z.2] at h
      rw [FP.lt_fin o.1 e, o.2] at hy
      exact ⟨e, by simpa using h, by simpa using hy.2⟩

/-! ## The methods of `Rgb` -/

/-- Every method of `Rgb` gives a colour of numbers if it is given colours of numbers and finite numbers. -/
theorem C122_colours (hp : PowGivesNumbers) {c o : Col F32} (hc : UnitCol c) (ho : UnitCol o) {p q r : F32}
    (fp : p.fin = true) (fq : q.fin = true) (fr : r.fin = true) (i : Intensity) :
    ∀ d ∈ [Rgb.to_gray c, Rgb.to_gray_with_intensity c i, Rgb.invert c, Rgb.difference c o,
      Rgb.with_gamma c p, Rgb.with_gamma_opt c p, Rgb.with_level c p q r, Rgb.with_brightness c p,
      Rgb.with_contrast c p, Rgb.with_brightness_contrast c p q, Rgb.with_saturation c p,
      Rgb.stretch_saturation c p, Rgb.with_lightness c p,
      Rgb.with_hue_rotate c p, Rgb.with_vibrance c p, Rgb.with_sepia c, Rgb.modulate c p q r,
      Rgb.alpha_blend c o], UnitCol d := by
  obtain ⟨hh, hs, hl⟩ := hsl_number hc
  have hh' := hh.mono (m := 123) (by norm_num)
  have ha := fin_number hc.alpha.1
  have one : Bd 0 (FP.ofRat b32 false 1) := Bd.ofRat (by norm_num) (by norm_num)
  have halfv : (FP.ofRat b32 false 0.5).fin = true ∧ |(FP.ofRat b32 false 0.5).val| ≤ 1 := by decide +kernel
  have small : ∀ {x : F32}, (x.fin = true ∧ 0 ≤ x.val ∧ x.val ≤ 1) → |x.val| ≤ 1 :=
    fun h => by rw [abs_of_nonneg h.2.1]; exact h.2.2
  have weigh : ∀ {u v w : ℚ}, |u| ≤ 2 ^ 0 → |v| ≤ 2 ^ 0 → |w| ≤ 2 ^ 0 →
      c.c0 *. lit u +. c.c1 *. lit v +. c.c2 *. lit w ≠ .nan := by
    intro u v w hu hv hw
    have t : ∀ {x : F32} {u : ℚ}, (x.fin = true ∧ 0 ≤ x.val ∧ x.val ≤ 1) → |u| ≤ 2 ^ 0 →
        Bd 0 (FP.mul x (FP.ofRat b32 false u)) :=
      fun h hu => (Bd.unit h).mul (Bd.ofRat (k := 0) (by norm_num) hu) (by norm_num) (by norm_num)
    exact (((t hc.c0 hu).add (t hc.c1 hv) (m := 1) (by norm_num) (by norm_num) (by norm_num)).add (t hc.c2 hw) (m := 2)
      (by norm_num) (by norm_num) (by norm_num)).number
  have gray : ∀ i, UnitCol (Rgb.to_gray_with_intensity c i) := by
    intro i
    have r := (C118_colours (UnitCol.inRange hc) c p q r i id).1 (Rgb.to_gray_with_intensity c i) (.tail _ (.head _))
    have ext := extremes_number (UnitCol.inRange hc).1
    have nn : (Rgb.to_gray_with_intensity c i).c0 ≠ .nan := by
      cases i with
      | Average =>
        exact div_number (((Bd.unit hc.c0).add (Bd.unit hc.c1) (m := 1) (by norm_num) (by norm_num) (by norm_num)).add
          (Bd.unit hc.c2) (m := 2) (by norm_num) (by norm_num) (by norm_num)).number
          (y := FP.ofRat b32 false 3) (by decide +kernel) (by decide +kernel)
      | Rec601Luma => exact weigh (by norm_num [abs_le]) (by norm_num [abs_le]) (by norm_num [abs_le])
      | Rec709Luma => exact weigh (by norm_num [abs_le]) (by norm_num [abs_le]) (by norm_num [abs_le])
      | Brightness => exact fin_number ext.1.1
      | Lightness =>
        exact div_number ((Bd.unit ext.2).add (Bd.unit ext.1) (m := 1) (by norm_num) (by norm_num) (by norm_num)).number
          (y := FP.ofRat b32 false 2) (by decide +kernel) (by decide +kernel)
      | Saturation => exact fin_number hs.1
      | Red => exact fin_number hc.c0.1
      | Green => exact fin_number hc.c1.1
      | Blue => exact fin_number hc.c2.1
    have u := unit_of r.1.1 nn
    exact ⟨u, u, u, hc.alpha⟩
  have inv : ∀ {x : F32}, (x.fin = true ∧ 0 ≤ x.val ∧ x.val ≤ 1) →
      (FP.sub (FP.ofRat b32 false 1) x).fin = true ∧ 0 ≤ (FP.sub (FP.ofRat b32 false 1) x).val ∧
        (FP.sub (FP.ofRat b32 false 1) x).val ≤ 1 := by
    intro x h
    exact unit_of (invert_inRange ((upto_iff _).2 (.inr h))) (sub_number one.fin h.1)
  have powc : ∀ {v y : F32}, v ≠ .nan → y ≠ .nan → Scalar.powf (clamp01 v) y ≠ .nan :=
    fun hv hy => powf_number hp (unit_nonneg (clamp_number hv)) hy
  have two : (FP.ofRat b32 false 2).fin = true ∧ (FP.ofRat b32 false 2).val ≠ 0 := by decide +kernel
  have absn : ∀ {x y : F32}, (x.fin = true ∧ 0 ≤ x.val ∧ x.val ≤ 1) → (y.fin = true ∧ 0 ≤ y.val ∧ y.val ≤ 1) →
      FP.abs (FP.sub x y) ≠ .nan :=
    fun hx hy => ((Bd.unit hx).sub (Bd.unit hy) (m := 1) (by norm_num) (by norm_num) (by norm_num)).abs.number
  have over : ∀ {x y : F32}, (x.fin = true ∧ 0 ≤ x.val ∧ x.val ≤ 1) → (y.fin = true ∧ 0 ≤ y.val ∧ y.val ≤ 1) →
      x *. o.alpha +. (lit 1 -. o.alpha) *. y ≠ .nan := by
    intro x y hx hy
    exact (Bd.add (k := 0) (l := 0) (m := 1) ((Bd.unit hx).mul (Bd.unit ho.alpha) (by norm_num) (by norm_num))
      ((Bd.unit (inv ho.alpha)).mul (Bd.unit hy) (by norm_num) (by norm_num)) (by norm_num) (by norm_num)
      (by norm_num)).number
  simp only [List.forall_mem_cons]
  refine ⟨gray _, gray i, ⟨inv hc.c0, inv hc.c1, inv hc.c2, hc.alpha⟩, ?_, ?_, ?_, ?_, ?_, ?_, ?_, ?_, ?_, ?_, ?_, ?_,
    ?_, ?_, ?_, fun d h => by cases h⟩
  · exact ⟨clamp_number (absn hc.c0 ho.c0), clamp_number (absn hc.c1 ho.c1), clamp_number (absn hc.c2 ho.c2),
      by show (FP.ofRat b32 false 1).fin = true ∧ 0 ≤ (FP.ofRat b32 false 1).val ∧ (FP.ofRat b32 false 1).val ≤ 1
         decide +kernel⟩
  · exact channels_unit hc fun v hv => powc (fin_number hv.1) (recip_number (fin_number fp))
  · refine channels_unit hc fun v hv => ?_
    split
    · refine add_number' (div_number (powc ?_ (recip_number (fin_number fp))) two.1 two.2) halfv.1
      exact mul_number (sub_small hv.1 halfv.1 halfv.2) two.1
    · exact div_number (powc (mul_number hv.1 two.1) (mul_number one.fin fp)) two.1 two.2
  · exact channels_unit hc fun v hv => level_number hp fp fq fr hv
  · exact channels_unit hc fun v hv => fin_number (add_small' hv.1 fp (small hv))
  · exact channels_unit hc fun v hv => add_number' (mul_number (sub_small hv.1 halfv.1 halfv.2) fp) halfv.1
  · exact channels_unit hc fun v hv =>
      add_number' (mul_number (sub_small (add_small' hv.1 fp (small hv)) halfv.1 halfv.2) fq) halfv.1
  · exact hsl_unit hh' (clamp_number (mul_number hs.1 fp)) hl ha
  · refine hsl_unit hh' (clamp_number ?_) hl ha
    exact add_number' (mul_number (sub_small hs.1 halfv.1 halfv.2) fp) halfv.1
  · exact hsl_unit hh' hs (clamp_number (mul_number hl.1 fp)) ha
  · exact hsl_unit (rotated_number hh fp) hs hl ha
  · exact hsl_unit hh' (squeeze_number _) hl (fin_number one.fin)
  · exact new_unit (weigh (by norm_num [abs_le]) (by norm_num [abs_le]) (by norm_num [abs_le]))
      (weigh (by norm_num [abs_le]) (by norm_num [abs_le]) (by norm_num [abs_le]))
      (weigh (by norm_num [abs_le]) (by norm_num [abs_le]) (by norm_num [abs_le])) ha
  · refine hsl_unit ?_ (clamp_number (mul_number hs.1 fq)) (clamp_number (mul_number hl.1 fr)) ?_
    · exact (Bd.unit (clamp_number (mul_number hh.fin fp))).mono (by norm_num)
    · rw [to_hsl_alpha]; exact ha
  · refine new_unit (over ho.c0 hc.c0) (over ho.c1 hc.c1) (over ho.c2 hc.c2) ?_
    unfold Scalar.min
    have sum := (Bd.unit hc.alpha).add (Bd.unit ho.alpha) (m := 1) (by norm_num) (by norm_num) (by norm_num)
    repeat' split
    all_goals first | exact FP.ofRat_not_nan | exact sum.number

end

end D10
