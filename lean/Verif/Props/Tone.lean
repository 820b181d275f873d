import Verif.SpecTone
import Verif.Lemmas.Histogram
import Verif.Props.ColorOps
import Verif.Props.ColorRange
import Verif.Props.Smooth
import Mathlib.Tactic.IntervalCases

/-!
# Temperature, lightness and saturation of a whole image (C68, C73)
-/

namespace D10
open Spec
open Scalar (isNan)

/-! ## The two float types -/

instance [Libm b32] [Libm b64] : Widen F32 F64 where
  up := FP.cast b64
  down := FP.cast b32

/-- In exact arithmetic both types are the real numbers. -/
noncomputable instance [Junk] : Widen ℝ ℝ where
  up x := x
  down x := x

/-- Differences of whole numbers up to 12000 are compared exactly. -/
class SmallNat (D : Type) [Scalar D] : Prop where
  far : ∀ m n : Nat, m ≤ 12000 → n ≤ m →
    (lit 1 <. Scalar.abs (lit (m : ℚ) -. lit (n : ℚ) : D)) = decide (1 < m - n)

noncomputable instance [Junk] : SmallNat ℝ where
  far m n _ h := by
    rw [Bool.eq_iff_iff, Exact.lt, Exact.abs, decide_eq_true_eq]
    ex_simp
    rw [← Nat.cast_sub h, abs_of_nonneg (by positivity)]
    norm_num

instance [Libm b64] : SmallNat F64 where
  far m n hm h := by
    have nat : ∀ (s : Bool) (k : Nat), k ≤ 12000 →
        (FP.ofRat b64 s (k : ℚ)).fin = true ∧ (FP.ofRat b64 s (k : ℚ)).val = k := by
      intro s k hk
      have h := FP.int_finite (f := b64) (k : Int) (by
        rw [abs_of_nonneg (by omega)]
        refine le_trans (show (k : Int) ≤ 12000 by omega) (by norm_num [b64]))
      have := FP.ofRat_rep (s := s) h.1 h.2
      simpa using this
    have h1 := nat false 1 (by norm_num)
    have hm' := nat false m hm
    have hn' := nat false n (by omega)
    show FP.lt (FP.ofRat b64 false 1) (FP.abs (FP.sub (FP.ofRat b64 false (m : ℚ)) (FP.ofRat b64 false (n : ℚ)))) = _
    rw [FP.sub_fin hm'.1 hn'.1, hm'.2, hn'.2, ← Nat.cast_sub h]
    generalize (_ && _ : Bool) = s
    have hd := nat s (m - n) (by omega)
    have ha := FP.abs_fin hd.1
    rw [Nat.cast_one] at h1
    rw [FP.lt_fin h1.1 ha.1, h1.2, ha.2, hd.2, abs_of_nonneg (by positivity)]
    congr 1
    rw [eq_iff_iff]
    norm_num

section
variable {F D : Type} [Scalar F] [Scalar D] [Widen F D]

/-! ## C68 -/

theorem table_get (n : Nat) (h1 : 1 ≤ n) (h2 : n ≤ 12) :
    index (TEMPERATURE_TABLE (D := D)) (n - 1) =
      .ok (lit (kelvinXY n).1, lit (kelvinXY n).2) := by
  have : n = 1 ∨ n = 2 ∨ n = 3 ∨ n = 4 ∨ n = 5 ∨ n = 6 ∨ n = 7 ∨ n = 8 ∨ n = 9 ∨ n = 10 ∨ n = 11 ∨
    n = 12 := by omega
  rcases this with rfl | rfl | rfl | rfl | rfl | rfl | rfl | rfl | rfl | rfl | rfl | rfl <;> rfl

/-- C68: for every number given as a temperature, also NaN and infinities, the colour of the light is
found without a panic. -/
theorem C68_light [SmallNat D] (t : F) :
    convert_kelvin_to_rgb D t = .ok (lightColour D (kelvin t)) := by
  have hk : (if Scalar.asUsize t < 1000 then 1000 else if 12000 < Scalar.asUsize t then 12000
      else Scalar.asUsize t) = kelvin t := by
    have : (Scalar.toInt 0 (2 ^ 64 - 1) t).toNat = Scalar.asUsize t := rfl
    unfold kelvin
    rw [this]
    split
    · omega
    · split <;> omega
  have hlo : 1000 ≤ kelvin t := by unfold kelvin; omega
  have hhi : kelvin t ≤ 12000 := by unfold kelvin; omega
  unfold convert_kelvin_to_rgb
  simp only [hk]
  generalize kelvin t = T at *
  have hus : usub (T / 1000) 1 = .ok (T / 1000 - 1) := by
    unfold usub; rw [if_pos (by omega)]
  rw [hus, ok_bind, table_get (T / 1000) (by omega) (by omega), ok_bind]
  simp only []
  have hfar : (lit 1 <. Scalar.abs (Scalar.ofNat T -. Scalar.ofNat (T / 1000 * 1000) : D)) =
      decide (1 < T % 1000) := by
    have := SmallNat.far (D := D) T (T / 1000 * 1000) hhi (by omega)
    rw [show T - T / 1000 * 1000 = T % 1000 by omega] at this
    exact this
  rw [hfar]
  unfold lightColour chroma
  by_cases hr : T % 1000 ≤ 1
  · have hd : decide (1 < T % 1000) = false := by simpa using hr
    simp only [hd, if_pos hr]
    rfl
  · have hd : decide (1 < T % 1000) = true := by simpa using hr
    have := table_get (D := D) (T / 1000 + 1) (by omega) (by omega)
    rw [Nat.add_sub_cancel] at this
    simp only [hd, if_neg hr, if_true, this, ok_bind]
    rfl

/-- C68: the temperature change never panics, keeps the size, and changes every pixel by the factors
of the two temperatures and the tint exponents of the image. -/
theorem C68_change [SmallNat D] [LawfulScalar F] {b : PixelBuffer (Col F)} {w h px} (sh : Shows b w h px)
    (orig new tint : F) :
    ∃ b', change_color_temperature D b orig new tint = .ok b' ∧
      Shows b' w h (fun x y => tempered (factors D orig new) (powers (rows w h px) tint) (px x y)) := by
  have hg : (if (lit 0 <. tint) = true then Scalar.max (get_green_tint_pow b tint) (lit 0) else lit 0) =
      (powers (rows w h px) tint).c1 := by
    unfold powers get_green_tint_pow excess addUp
    simp only []
    split
    · rename_i ht
      rw [if_neg (fun hle => by rw [LawfulScalar.not_lt _ _ hle] at ht; cases ht), sh.pixels, List.foldl_map]; rfl
    · rfl
  have hr : get_red_tint_pow b tint = (powers (rows w h px) tint).c0 := by
    unfold powers get_red_tint_pow excess addUp
    simp only []
    rw [sh.pixels, List.foldl_map]; rfl
  have hb : get_blue_tint_pow b tint = (powers (rows w h px) tint).c2 := by
    unfold powers get_blue_tint_pow excess addUp
    simp only []
    rw [sh.pixels, List.foldl_map]; rfl
  have hf : calculate_factors D orig new = .ok ((factors D orig new).c0, (factors D orig new).c1,
      (factors D orig new).c2) := by
    unfold calculate_factors
    rw [C68_light, ok_bind, C68_light, ok_bind]; rfl
  unfold change_color_temperature
  rw [hf, ok_bind]
  simp only [hg, hr, hb, C07_mod_colors]
  generalize powers (rows w h px) tint = pw
  generalize factors D orig new = fc
  refine ⟨_, rfl, ?_⟩
  by_cases h1 : (lit 0 <. pw.c1) = true <;> by_cases h0 : (lit 0 <. pw.c0) = true <;>
    by_cases h2 : (lit 0 <. pw.c2) = true <;> simp only [h0, h1, h2, tempered, if_true, if_false, Bool.false_eq_true]
  all_goals
    first
    | exact C07_map_colors (C07_map_colors (C07_map_colors sh _) _) _
    | exact C07_map_colors (C07_map_colors sh _) _
    | exact C07_map_colors sh _

/-- C68: an alpha in [0, 1] is kept. -/
theorem C68_alpha [LawfulScalar F] (f p : Col F) (c : Col F)
    (h0 : (lit 0 <=. c.alpha) = true) (h1 : (c.alpha <=. lit 1) = true) :
    (tempered f p c).alpha = c.alpha := clamp01_id h0 h1

/-- C68: the automatic change goes from 6500 K to the temperature given by the mean difference of red
and blue. -/
theorem C68_optimize [SmallNat D] [LawfulScalar F] {b : PixelBuffer (Col F)} {w h px}
    (sh : Shows b w h px) (factor tint : F) :
    let mean : D := addUp (rows w h fun x y => Widen.up (px x y).c0 -. Widen.up (px x y).c2) /.
      lit ((w * h : Nat) : ℚ)
    let new : F := Widen.down (lit 6500 -. Scalar.tanh mean *. (Widen.up factor *. lit 4000))
    ∃ b', optimize_color_temperature D b factor tint = .ok b' ∧
      Shows b' w h (fun x y => tempered (factors D (lit 6500) new) (powers (rows w h px) tint) (px x y)) := by
  intro mean new
  unfold optimize_color_temperature
  simp only []
  have hm : (b.data.foldl (fun (sum : D) c => sum +. (Widen.up c.c0 -. Widen.up c.c2)) (lit 0) /.
      Scalar.ofNat b.data.length : D) = mean := by
    show _ = addUp _ /. _
    unfold addUp
    rw [sh.pixels, rows_length, ← rows_map (f := fun c : Col F => (Widen.up c.c0 -. Widen.up c.c2 : D)),
      List.foldl_map]
    rfl
  rw [hm]
  exact C68_change sh (lit 6500) new tint

end

/-! ### Exact arithmetic -/

section
variable [Junk]

omit [Junk] in
theorem kelvinXY_pos (n : Nat) (h2 : 2 ≤ n) :
    let x := (kelvinXY n).1
    let y := (kelvinXY n).2
    0 < y ∧ 0 < 3.240479 * x - 1.53715 * y - 0.498535 * (1 - x - y) ∧
    0 < -0.969256 * x + 1.875991 * y + 0.041556 * (1 - x - y) ∧
    0 < 0.055648 * x - 0.204043 * y + 1.057311 * (1 - x - y) := by
  by_cases h : n ≤ 11
  · interval_cases n <;> norm_num [kelvinXY]
  · have : kelvinXY n = (0.271782994107569, 0.277561259748537) := by
      unfold kelvinXY
      split <;> first | omega | rfl
    rw [this]; norm_num

/-- The light of 2000 K and more has no channel at 0. -/
theorem light_pos (T : Nat) (h : 2000 ≤ T) :
    let c : Col ℝ := lightColour ℝ T
    0 < c.c0 ∧ 0 < c.c1 ∧ 0 < c.c2 := by
  have hx : ∃ x y : ℝ, chroma Prod.fst T = x ∧ chroma Prod.snd T = y ∧
      0 < y ∧ 0 < 3.240479 * x - 1.53715 * y - 0.498535 * (1 - x - y) ∧
      0 < -0.969256 * x + 1.875991 * y + 0.041556 * (1 - x - y) ∧
      0 < 0.055648 * x - 0.204043 * y + 1.057311 * (1 - x - y) := by
    refine ⟨_, _, rfl, rfl, ?_⟩
    have p1 := kelvinXY_pos (T / 1000) (by omega)
    have p2 := kelvinXY_pos (T / 1000 + 1) (by omega)
    simp only [] at p1 p2
    unfold chroma
    simp only []
    have hf : ((lit (T : ℚ) -. lit ((T / 1000 * 1000 : Nat) : ℚ)) /. lit 1000 : ℝ) = (T % 1000 : Nat) / 1000 := by
      rw [Exact.div (by ex_simp; norm_num)]
      have : (T : ℝ) = (T / 1000 * 1000 : Nat) + (T % 1000 : Nat) := by
        have := Nat.div_add_mod' T 1000
        exact_mod_cast this.symm
      ex_simp
      rw [this]
      congr 1
      push_cast; ring
    rw [hf]
    have f0 : (0 : ℝ) ≤ (T % 1000 : Nat) / 1000 := by positivity
    have f1 : ((T % 1000 : Nat) : ℝ) / 1000 < 1 := by
      rw [div_lt_one (by norm_num)]
      exact_mod_cast Nat.mod_lt T (by norm_num)
    generalize ((T % 1000 : Nat) : ℝ) / 1000 = f at *
    generalize kelvinXY (T / 1000) = a at *
    generalize kelvinXY (T / 1000 + 1) = b at *
    obtain ⟨ax, ay⟩ := a
    obtain ⟨bx, by_⟩ := b
    simp only [] at *
    have cast : ∀ q : ℚ, 0 < q → (0 : ℝ) < (q : ℝ) := fun q h => by exact_mod_cast h
    obtain ⟨a0, a1, a2, a3⟩ := p1
    obtain ⟨b0, b1, b2, b3⟩ := p2
    have a0 := cast _ a0
    have a1 := cast _ a1
    have a2 := cast _ a2
    have a3 := cast _ a3
    have b0 := cast _ b0
    have b1 := cast _ b1
    have b2 := cast _ b2
    have b3 := cast _ b3
    push_cast at a1 a2 a3 b1 b2 b3
    have mix : ∀ u v : ℝ, 0 < u → 0 < v → 0 < u * (1 - f) + v * f := by
      intro u v hu hv
      nlinarith [mul_nonneg hu.le (sub_nonneg.2 f1.le), mul_nonneg hv.le f0, mul_pos hu (sub_pos.2 f1)]
    split
    · ex_simp; exact ⟨a0, a1, a2, a3⟩
    · ex_simp
      have m0 := mix _ _ a0 b0
      have m1 := mix _ _ a1 b1
      have m2 := mix _ _ a2 b2
      have m3 := mix _ _ a3 b3
      refine ⟨by push_cast at *; linarith, by push_cast at *; linarith, by push_cast at *; linarith,
        by push_cast at *; linarith⟩
  obtain ⟨x, y, ex, ey, hy, h1, h2, h3⟩ := hx
  intro c
  have hc : c = to_rgb .xyz ⟨x * (1 / y), y * (1 / y), (1 - x - y) * (1 / y), 1⟩ := by
    show lightColour ℝ T = _
    unfold lightColour
    simp only []
    rw [ex, ey, Exact.div hy.ne']
    ex_simp
    rfl
  have pos : ∀ v : ℝ, 0 < v → 0 < clamp01 v := by
    intro v hv
    rw [Exact.clamp01]
    exact lt_max_of_lt_right (lt_min one_pos hv)
  have e : ∀ v : ℝ, 0 < v → 0 < v * (1 / y) := fun v hv => mul_pos hv (one_div_pos.2 hy)
  rw [hc]
  refine ⟨pos _ ?_, pos _ ?_, pos _ ?_⟩
  · have := e _ h1
    ex_simp
    nlinarith
  · have := e _ h2
    ex_simp
    nlinarith
  · have := e _ h3
    ex_simp
    nlinarith

/-- C68 in exact arithmetic: a change between equal temperatures of at least 2000 K without tint
correction leaves every pixel as it is. -/
theorem C68_same_temperature (cs : List (Col ℝ)) (t tint : ℝ) (ht : 2000 ≤ t) (h0 : tint ≤ 0) (c : Col ℝ)
    (hc : Spec.Unit c) : tempered (factors ℝ t t) (powers cs tint) c = c := by
  have hk : 2000 ≤ kelvin t := by
    have hf : 2000 ≤ ⌊t⌋ := by rw [Int.le_floor]; exact_mod_cast ht
    have : Scalar.toInt 0 (2 ^ 64 - 1) t = max 0 (min (2 ^ 64 - 1) ⌊t⌋) := by
      show max 0 (min (2 ^ 64 - 1) (if t < 0 then _ else _)) = _
      rw [if_neg (by linarith)]
    unfold kelvin
    rw [this]; omega
  obtain ⟨l0, l1, l2⟩ := light_pos (kelvin t) hk
  have hpow : powers cs tint = ⟨0, 0, 0, 1⟩ := by
    have hle : (tint <=. lit 0) = true := by rw [Exact.le]; ex_simp; exact h0
    have hlt : ¬ ((lit 0 <. tint) = true) := by rw [Exact.lt]; ex_simp; linarith
    unfold powers
    simp only [if_pos hle, if_neg hlt]
    ex_simp
  have hfac : factors ℝ t t = ⟨1, 1, 1, 1⟩ := by
    unfold factors
    simp only []
    rw [Exact.div l0.ne', Exact.div l1.ne', Exact.div l2.ne', div_self l0.ne', div_self l1.ne',
      div_self l2.ne']
    ex_simp
  have hn : ¬ ((lit 0 <. (0 : ℝ)) = true) := by rw [Exact.lt]; ex_simp; norm_num
  rw [hpow, hfac]
  unfold tempered
  simp only [if_neg hn]
  unfold Rgb.new_with_alpha
  ex_simp
  rw [mul_one, mul_one, mul_one, Exact.clamp01_id hc.r0 hc.r1, Exact.clamp01_id hc.g0 hc.g1,
    Exact.clamp01_id hc.b0 hc.b1, Exact.clamp01_id hc.a0 hc.a1]

/-- Non-vacuity. -/
example : (2000 : ℝ) ≤ 6500 ∧ Spec.Unit (⟨1 / 4, 1 / 2, 1, 1 / 2⟩ : Col ℝ) :=
  ⟨by norm_num, by constructor <;> norm_num⟩

end

/-! ### binary32 -/

section

/-- `lightColour` for the two float types, with the float operations written out. -/
def lightFP (T : Nat) : F32 × F32 × F32 :=
  let n := T / 1000
  let l := fun q : ℚ => FP.ofRat b64 false q
  let f : F64 := FP.div (FP.sub (l T) (l (n * 1000 : Nat))) (l 1000)
  let ch := fun (a b : ℚ) => if T % 1000 ≤ 1 then l a
    else FP.add (FP.mul (l a) (FP.sub (l 1) f)) (FP.mul (l b) f)
  let x := ch (kelvinXY n).1 (kelvinXY (n + 1)).1
  let y := ch (kelvinXY n).2 (kelvinXY (n + 1)).2
  let s := FP.div (l 1) y
  let X : F32 := FP.cast b32 (FP.mul x s)
  let Y : F32 := FP.cast b32 (FP.mul y s)
  let Z : F32 := FP.cast b32 (FP.mul (FP.sub (FP.sub (l 1) x) y) s)
  let m := fun q : ℚ => FP.ofRat b32 false q
  let clamp := fun v : F32 => if FP.lt v (m 0) then m 0 else if FP.lt (m 1) v then m 1 else v
  let dot := fun a b c : ℚ => clamp (FP.add (FP.add (FP.mul X (m a)) (FP.mul Y (m b))) (FP.mul Z (m c)))
  (dot 3.240479 (-1.53715) (-0.498535), dot (-0.969256) 1.875991 0.041556,
    dot 0.055648 (-0.204043) 1.057311)

theorem lightFP_eq [Libm b32] [Libm b64] (T : Nat) :
    lightFP T = ((lightColour F64 T : Col F32).c0, (lightColour F64 T : Col F32).c1,
      (lightColour F64 T : Col F32).c2) := by
  rfl

theorem fp_div_self {x : F32} (hx : x.fin = true) (h0 : x.val ≠ 0) :
    FP.div x x = FP.ofRat b32 false 1 := by
  rw [FP.div_fin hx hx h0, div_self h0, Bool.xor_self]

theorem fp_mul_one (x : F32) (hx : x.fin = true) : FP.mul x (FP.ofRat b32 false 1) = x := by
  have h1 := FP.lit1
  have hneg : (FP.ofRat b32 false 1).isNeg = false := by decide +kernel
  rw [FP.mul_fin hx h1.1, h1.2, mul_one, hneg, Bool.xor_false]
  cases x with
  | nan => simp [FP.fin] at hx
  | inf s => simp [FP.fin] at hx
  | zero s => exact FP.ofRat_zero _
  | num q h =>
    have := FP.ofRat_rep (s := (FP.num q h).isNeg) h.2.1 h.2.2
    refine FP.ext_val this.1 rfl this.2 ?_
    show (FP.ofRat b32 _ q).val ≠ 0
    rw [this.2]; exact h.1

/-- C68 in binary32: a change between temperatures of the same light without tint correction leaves
every pixel with channels in [0, 1] as it is, bit for bit, if the light has no channel at 0. -/
theorem C68_same_f32 [Libm b32] [Libm b64] (cs : List (Col F32)) (t tint : F32)
    (hl : let c : Col F32 := lightColour F64 (kelvin t)
      (c.c0.fin = true ∧ c.c0.val ≠ 0) ∧ (c.c1.fin = true ∧ c.c1.val ≠ 0) ∧
      c.c2.fin = true ∧ c.c2.val ≠ 0)
    (h0 : (tint <=. lit 0) = true) (c : Col F32)
    (hc : Spec.Chan c.c0 ∧ Spec.Chan c.c1 ∧ Spec.Chan c.c2 ∧ Spec.Chan c.alpha) :
    tempered (factors F64 t t) (powers cs tint) c = c := by
  obtain ⟨l0, l1, l2⟩ := hl
  have hpow : powers cs tint = (⟨lit 0, lit 0, lit 0, lit 1⟩ : Col F32) := by
    unfold powers
    simp only [if_pos h0, LawfulScalar.not_lt _ _ h0]
    rfl
  have hfac : factors F64 t t = (⟨lit 1, lit 1, lit 1, lit 1⟩ : Col F32) := by
    unfold factors
    show (⟨FP.div _ _, FP.div _ _, FP.div _ _, _⟩ : Col F32) = _
    rw [fp_div_self l0.1 l0.2, fp_div_self l1.1 l1.2, fp_div_self l2.1 l2.2]
    rfl
  have hn : ¬ ((lit 0 <. (lit 0 : F32)) = true) := by rw [LawfulScalar.lt_irrefl]; simp
  rw [hpow, hfac]
  unfold tempered
  simp only [if_neg hn]
  have id : ∀ x : F32, Spec.Chan x → clamp01 x = x := by
    intro x hx
    apply clamp01_id
    · show (FP.ofRat b32 false 0 <=. x) = true
      rw [FP.le_fin FP.lit0.1 hx.1, FP.lit0.2]; simpa using hx.2.1
    · show (x <=. FP.ofRat b32 false 1) = true
      rw [FP.le_fin hx.1 FP.lit1.1, FP.lit1.2]; simpa using hx.2.2
  unfold Rgb.new_with_alpha
  show (⟨clamp01 (FP.mul _ _), clamp01 (FP.mul _ _), clamp01 (FP.mul _ _), _⟩ : Col F32) = _
  rw [show (lit 1 : F32) = FP.ofRat b32 false 1 from rfl, fp_mul_one _ hc.1.1, fp_mul_one _ hc.2.1.1,
    fp_mul_one _ hc.2.2.1.1, id _ hc.1, id _ hc.2.1, id _ hc.2.2.1]
  exact congrArg _ (id _ hc.2.2.2)

theorem kelvin_lit [Libm b32] (n : Nat) (h0 : 1000 ≤ n) (h1 : n ≤ 12000) :
    kelvin (lit (n : ℚ) : F32) = n := by
  have h := FP.lit32 (n : Int) (by rw [abs_of_nonneg (by omega)]; omega)
  unfold kelvin
  have : Scalar.toInt 0 (2 ^ 64 - 1) (lit (n : ℚ) : F32) = n := by
    show FP.toInt _ _ (FP.ofRat b32 false (n : ℚ)) = _
    rw [Int.cast_natCast] at h
    rw [FP.toInt_fin _ _ h.1, h.2]
    have := trunc_int (n : Int)
    rw [Int.cast_natCast] at this
    rw [this]; omega
  rw [this]; omega

/-- Non-vacuity: 6500 K meets the condition on the light. -/
example [Libm b32] [Libm b64] : let c : Col F32 := lightColour F64 (kelvin (lit 6500 : F32))
    (c.c0.fin = true ∧ c.c0.val ≠ 0) ∧ (c.c1.fin = true ∧ c.c1.val ≠ 0) ∧
      c.c2.fin = true ∧ c.c2.val ≠ 0 := by
  have hk := kelvin_lit 6500 (by norm_num) (by norm_num)
  rw [Nat.cast_ofNat] at hk
  intro c
  have hc : c = lightColour F64 6500 := by show lightColour F64 _ = _; rw [hk]
  have e := lightFP_eq 6500
  rw [← hc] at e
  have e0 : c.c0 = (lightFP 6500).1 := by rw [e]
  have e1 : c.c1 = (lightFP 6500).2.1 := by rw [e]
  have e2 : c.c2 = (lightFP 6500).2.2 := by rw [e]
  rw [e0, e1, e2]
  decide +kernel

/-- C68: the light of 1000 K has no blue, so the factor of a change from 6500 K to 1000 K is infinite
and blue becomes NaN in pixels without blue. -/
theorem C68_cold_nan [Libm b32] [Libm b64] (p : Col F32) (hp : (lit 0 <. p.c2) = false) (r g a : F32) :
    isNan (tempered (factors F64 (lit 6500) (lit 1000)) p ⟨r, g, lit 0, a⟩).c2 = true := by
  have hk := kelvin_lit 6500 (by norm_num) (by norm_num)
  have hk1 := kelvin_lit 1000 (by norm_num) (by norm_num)
  rw [Nat.cast_ofNat] at hk hk1
  have e0 : (lightColour F64 6500 : Col F32).c2 = (lightFP 6500).2.2 := by rw [lightFP_eq]
  have e1 : (lightColour F64 1000 : Col F32).c2 = (lightFP 1000).2.2 := by rw [lightFP_eq]
  have hf : (factors F64 (lit 6500) (lit 1000) : Col F32).c2 = .inf false := by
    show FP.div (lightColour F64 (kelvin (lit 6500 : F32))).c2 (lightColour F64 (kelvin (lit 1000 : F32))).c2 = _
    rw [hk, hk1, e0, e1]
    decide +kernel
  unfold tempered
  simp only [hp, Bool.false_eq_true, if_false]
  rw [hf]
  have hz : (lit 0 : F32) *. (.inf false : F32) = .nan := by
    show FP.mul (FP.ofRat b32 false 0) _ = _
    rw [FP.ofRat_zero]; rfl
  show isNan (clamp01 (lit 0 *. (.inf false : F32))) = true
  rw [hz]
  unfold clamp01 Scalar.clamp
  rw [LawfulScalar.lt_nan_left _ _ rfl, LawfulScalar.lt_nan_right _ _ rfl]
  rfl

end

/-! ## C73 Lightness and saturation -/

section
variable {F : Type} [Scalar F]

/-- C73: the lightness optimisation applies one gamma correction to every pixel, with the gamma
1 − (m − 1/2)·factor where `m` is the mean HSL lightness (added up and divided in f64). -/
theorem C73_lightness (D : Type) [Scalar D] [Widen F D] {b : PixelBuffer (Col F)} {w h : Nat}
    {px : Nat → Nat → Col F} (sh : Shows b w h px) (factor : F) :
    let m : D := addUp ((rows w h px).map fun c => Widen.up (convert .rgb .hsl c).c2) /. lit ((w * h : Nat) : ℚ)
    let gamma := lit 1 -. (Widen.down m -. lit 0.5) *. factor
    Shows (optimize_lightness D b factor) w h fun x y => Rgb.with_gamma (px x y) gamma := by
  intro m gamma
  have e : (List.foldl (fun (sum : D) (c : Col F) => sum +. Widen.up (Rgb.to_hsl c).c2) (lit 0) b.data) /.
      Scalar.ofNat b.data.length = m := by
    rw [sh.pixels, rows_length]
    show _ = addUp _ /. _
    unfold addUp
    rw [List.foldl_map]
    rfl
  unfold optimize_lightness
  simp only [e]
  exact C07_map_colors sh _

/-- C73: the saturation optimisation changes every pixel by one `gamma`, computed from the mean
saturation of the image. -/
theorem C73_saturation {b : PixelBuffer (Col F)} {w h : Nat} {px : Nat → Nat → Col F}
    (sh : Shows b w h px) (offset : F) (mode : SaturationMode) :
    let m := addUp ((rows w h px).map fun c => (convert .rgb (saturationSpace mode) c).c1) /.
      lit ((w * h : Nat) : ℚ)
    Shows (optimize_saturation b offset mode) w h fun x y =>
      saturated mode (offset +. (lit 1 -. m) /. lit 1.5) (px x y) := by
  intro m
  have e : avg_saturation b mode = m := by
    unfold avg_saturation
    rw [sh.pixels, rows_length]
    show _ = addUp _ /. _
    unfold addUp
    rw [List.foldl_map]
    cases mode <;> rfl
  unfold optimize_saturation
  simp only [e]
  generalize m = m
  have := C07_map_colors sh fun c => saturated mode (offset +. (lit 1 -. m) /. lit 1.5) c
  cases mode <;> exact this

/-- C73: both optimisations keep an alpha in [0, 1]. -/
theorem C73_alpha [LawfulScalar F] (mode : SaturationMode) (gamma : F) (c : Col F)
    (h0 : (lit 0 <=. c.alpha) = true) (h1 : (c.alpha <=. lit 1) = true) :
    (Rgb.with_gamma c gamma).alpha = c.alpha ∧ (saturated mode gamma c).alpha = c.alpha := by
  constructor
  · rfl
  · unfold saturated
    exact to_rgb_alpha _ _ (clamp01_id h0 h1)

end

section
variable [Junk]

/-- C73, exact: the exponent is 1/(1 + (gamma − 1)·(1 − 2·|v − 1/2|)). -/
theorem C73_power (gamma v : ℝ) (h : 1 + (gamma - 1) * (1 - 2 * |v - 1 / 2|) ≠ 0) :
    saturationPower gamma v = 1 / (1 + (gamma - 1) * (1 - 2 * |v - 1 / 2|)) := by
  unfold saturationPower
  have e : (if (gamma <. (lit 0 : ℝ)) = true then
        (lit 1 : ℝ) -. (lit 1 -. gamma) *. (lit 1 -. Scalar.abs (v -. lit 0.5) *. lit 2)
      else lit 1 +. (gamma -. lit 1) *. (lit 1 -. Scalar.abs (v -. lit 0.5) *. lit 2)) =
      1 + (gamma - 1) * (1 - 2 * |v - 1 / 2|) := by
    have hv : (v - (0.5:ℝ)) = v - 1/2 := by norm_num
    split <;> (ex_simp; rw [hv]; ring)
  simp only []
  rw [e, Exact.div h]
  ex_simp

/-- C73, exact: factor 0 leaves the image as it is. -/
theorem C73_lightness_zero {b : PixelBuffer (Col ℝ)} {w h : Nat}
    {px : Nat → Nat → Col ℝ} (sh : Shows b w h px) (hu : ∀ x y, Spec.Unit (px x y)) :
    Shows (optimize_lightness ℝ b 0) w h px := by
  have hs := C73_lightness ℝ sh (0 : ℝ)
  refine hs.congr fun x y _ _ => ?_
  ex_simp
  rw [mul_zero, sub_zero]
  exact (C70_neutral _ (hu x y)).2.2.2.1

/-- The saturation of HSV is in [0, 1], and grey is converted back exactly. -/
theorem hsv_saturation (c : Col ℝ) (h : Spec.Unit c) :
    0 ≤ (Rgb.to_hsv c).c1 ∧ (Rgb.to_hsv c).c1 ≤ 1 ∧ (Rgb.to_hsv c).alpha = c.alpha ∧
    Col.eq (Hsv.to_rgb (Rgb.to_hsv c)) c = true := by
  by_cases hg : c.c0 = c.c1 ∧ c.c1 = c.c2
  · obtain ⟨e0, e1⟩ := hg
    have hM : max c.c0 (max c.c1 c.c2) = c.c2 := by rw [e0, e1, max_self, max_self]
    have hm : min c.c0 (min c.c1 c.c2) = c.c2 := by rw [e0, e1, min_self, min_self]
    have hc : c = ⟨c.c2, c.c2, c.c2, c.alpha⟩ := by
      cases c; simp only at e0 e1; subst e0; subst e1; rfl
    have key : (Rgb.to_hsv c).c1 = 0 ∧ (Rgb.to_hsv c).alpha = c.alpha ∧ (Rgb.to_hsv c).c2 = c.c2 := by
      unfold Rgb.to_hsv
      simp only [Exact.rgb_max h, Exact.rgb_min h, Exact.EPSILON, Bool.or_eq_true, hM, hm]
      split
      · rename_i hE
        have : c.c2 ≠ 0 := by
          ex_simp at hE
          rcases hE with hE | hE
          · norm_num at hE
          · intro h0; rw [h0] at hE; norm_num at hE
        refine ⟨?_, rfl, rfl⟩
        show (c.c2 -. c.c2) /. c.c2 = 0
        rw [Exact.div this]; ex_simp; simp
      · refine ⟨by ex_simp, rfl, rfl⟩
    obtain ⟨k1, k2, k3⟩ := key
    refine ⟨by rw [k1], by rw [k1]; norm_num, k2, ?_⟩
    apply Exact.col_eq_of_eq
    unfold Hsv.to_rgb
    simp only [k1]
    ex_simp
    rw [if_pos (le_refl _), k2, k3]
    exact hc.symm
  · have rt := C29_hsv_round_trip c h hg
    obtain ⟨hm0, hM1, hr', hg', hb', hr, hg2, hb⟩ := unit_minmax h
    have hd : min c.c0 (min c.c1 c.c2) < max c.c0 (max c.c1 c.c2) := by
      by_contra hc
      exact hg ⟨by linarith, by linarith⟩
    by_cases hE : 1 / 32768 ≤ max c.c0 (max c.c1 c.c2)
    · obtain ⟨_, _, _, s0, s1, _, ha⟩ := C29_hsv_round_trip_exact c h _ _ rfl rfl hd hE
      exact ⟨s0, s1, ha, rt⟩
    · have e : Rgb.to_hsv c = ⟨0, 0, max c.c0 (max c.c1 c.c2), c.alpha⟩ := by
        have hE := not_le.1 hE
        unfold Rgb.to_hsv
        simp only [Exact.rgb_max h, Exact.rgb_min h, Exact.EPSILON, Bool.or_eq_true]
        ex_simp
        rw [if_neg (by intro h; rcases h with h | h <;> linarith)]
        norm_num
      refine ⟨by rw [e], by rw [e]; exact zero_le_one, by rw [e], rt⟩

/-- C73, exact: with a gamma of 1 the saturation optimisation keeps every colour up to equality
of colours, in LCh for chromas up to 1. -/
theorem C73_saturation_neutral (c : Col ℝ) (h : Spec.Unit c) :
    Col.eq (saturated .Hsl 1 c) c = true ∧ Col.eq (saturated .Hsv 1 c) c = true ∧
    ((to_lch .D65 .O2 .rgb c).c1 ≤ 1 → Col.eq (saturated .Lch 1 c) c = true) := by
  have hp : ∀ v : ℝ, saturationPower 1 v = 1 := by
    intro v
    rw [C73_power 1 v (by simp)]; simp
  have step : ∀ (d : Col ℝ), 0 ≤ d.c1 → d.c1 ≤ 1 → d.alpha = c.alpha → ∀ v,
      (⟨d.c0, Scalar.powf (Scalar.clamp (lit 0) (lit 1) d.c1) (saturationPower 1 v), d.c2, c.alpha⟩ : Col ℝ) = d := by
    intro d d0 d1 da v
    have : Scalar.clamp (lit 0) (lit 1) d.c1 = d.c1 := Exact.clamp01_id d0 d1
    rw [this, hp, Exact.powf_one d0, ← da]
  refine ⟨?_, ?_, ?_⟩
  · obtain ⟨-, -, s0, s1, -, -, -, ha⟩ := C28_hsl_range c h
    have := step (to_hsl .rgb c) s0 s1 ha (brightness .Hsl (to_hsl .rgb c))
    show Col.eq (to_rgb .hsl _) c = true
    exact (congrArg (fun d => Col.eq (to_rgb .hsl d) c) this).trans (C28_hsl_round_trip c h)
  · obtain ⟨s0, s1, ha, rt⟩ := hsv_saturation c h
    have := step (to_hsv .rgb c) s0 s1 ha (brightness .Hsv (to_hsv .rgb c))
    exact (congrArg (fun d => Col.eq (to_rgb .hsv d) c) this).trans rt
  · intro s1
    obtain ⟨-, e1, -, -, -, -, ha⟩ := C72_lch .D65 .O2 .rgb c
    have s0 : 0 ≤ (to_lch .D65 .O2 .rgb c).c1 := by rw [e1]; exact Real.sqrt_nonneg _
    have := step (to_lch .D65 .O2 .rgb c) s0 s1 (ha.trans rfl) (brightness .Lch (to_lch .D65 .O2 .rgb c))
    exact (congrArg (fun d => Col.eq (to_rgb (.lch .D65 .O2) d) c) this).trans
      (C72_lch_round_trip .D65 .O2 c h).1

example : ∃ c : Col ℝ, Spec.Unit c ∧ (to_lch .D65 .O2 .rgb c).c1 ≤ 1 := by
  refine ⟨⟨0, 0, 0, 1⟩, by constructor <;> norm_num, ?_⟩
  rw [(C72_lch .D65 .O2 .rgb _).2.1]
  have e : to_xyz .rgb (⟨0, 0, 0, 1⟩ : Col ℝ) = ⟨0, 0, 0, 1⟩ := by
    show Rgb.to_xyz _ = _
    unfold Rgb.to_xyz apply_matrix to_rgb
    ex_simp
    norm_num
  have : to_lab .D65 .O2 .rgb (⟨0, 0, 0, 1⟩ : Col ℝ) = ⟨0, 0, 0, 1⟩ := by
    show to_lab .D65 .O2 .xyz (to_xyz .rgb _) = _
    rw [e]
    exact (C72_white .D65 .O2 1).2
  rw [this]
  norm_num

end
end D10
