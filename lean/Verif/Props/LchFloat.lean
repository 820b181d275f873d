import Verif.Props.LabFloat
import Mathlib.Analysis.SpecialFunctions.Trigonometric.Bounds
import Mathlib.Analysis.Real.Pi.Bounds

/-!
# LCh in 32-bit arithmetic (C113)
-/

namespace D10
open Scalar Spec FP

/-! ### Relative errors -/

theorem pow2_tiny : pow2 (-126) ≤ (1 / 10 ^ 37 : ℚ) ∧ pow2 (-150) ≤ (1 / 10 ^ 45 : ℚ) := by
  constructor <;> rw [pow2_eq] <;> norm_num

/-- Rounding has a relative error of 2^-24 and, near zero, a tiny absolute one. -/
theorem round_rel {b : Bool} {q : ℚ} (h : |q| ≤ 64) :
    (FP.ofRat b32 b q).fin = true ∧
    |((FP.ofRat b32 b q).val : ℝ) - q| ≤ |(q : ℝ)| / 16777216 + 1 / 10 ^ 44 ∧
    (0 ≤ q → 0 ≤ (FP.ofRat b32 b q).val) := by
  have sm := FP.ofRat_small (s := b) (q := q) (k := 6) (by decide) (by decide)
    (h.trans (by rw [pow2_eq]; norm_num))
  refine ⟨sm.1, ?_, fun h => by rw [sm.2]; exact rn_nonneg h⟩
  rw [sm.2]
  have t : |rn b32 q - q| ≤ |q| / 16777216 + 1 / 10 ^ 44 := by
    rcases le_total (pow2 (-126)) |q| with hq | hq
    · exact (rn_rel32 hq).trans (by norm_num)
    · refine (rn_err_le (k := -125) (by decide) (hq.trans ?_)).trans ?_
      · rw [pow2_eq, pow2_eq]; norm_num
      · have := abs_nonneg q
        have e : pow2 (-125 - (b32.prec : ℤ)) / 2 = pow2 (-150) := by
          rw [pow2_eq, pow2_eq]; norm_num [b32]
        rw [e]
        have := pow2_tiny.2
        linarith [show (1 / 10 ^ 45 : ℚ) ≤ 1 / 10 ^ 44 by norm_num]
  have c := (Rat.cast_le (K := ℝ)).2 t
  push_cast at c
  norm_num at c ⊢
  exact c

section
variable [Libm b32]

/-- The sum of two squares in 32-bit numbers. -/
theorem squares_close {a b : F32} (ha : a.fin = true) (hb : b.fin = true) (h : (a.val : ℝ) ^ 2 + (b.val : ℝ) ^ 2 ≤ 25) :
    Close (a *. a +. b *. b) ((a.val : ℝ) ^ 2 + (b.val : ℝ) ^ 2)
      (2.1 / 16777216 * ((a.val : ℝ) ^ 2 + (b.val : ℝ) ^ 2) + 1 / 10 ^ 40) ∧ 0 ≤ (a *. a +. b *. b : F32).val := by
  have sq : ∀ {x : F32}, x.fin = true → (x.val : ℝ) ^ 2 ≤ 25 → (x *. x : F32).fin = true ∧
      |((x *. x : F32).val : ℝ) - (x.val : ℝ) ^ 2| ≤ (x.val : ℝ) ^ 2 / 16777216 + 1 / 10 ^ 44 ∧
      0 ≤ (x *. x : F32).val := fun {x} hx h2 => by
    have q25 : |x.val * x.val| ≤ 64 := by
      rw [abs_of_nonneg (mul_self_nonneg _)]
      have : ((x.val * x.val : ℚ) : ℝ) ≤ ((64 : ℚ) : ℝ) := by push_cast; nlinarith
      exact_mod_cast this
    show (FP.mul x x).fin = true ∧ |((FP.mul x x).val : ℝ) - _| ≤ _ ∧ 0 ≤ (FP.mul x x).val
    rw [FP.mul_fin hx hx]
    obtain ⟨f, e, n⟩ := round_rel (b := x.isNeg ^^ x.isNeg) q25
    refine ⟨f, ?_, n (mul_self_nonneg _)⟩
    push_cast at e
    rw [abs_of_nonneg (mul_self_nonneg (x.val : ℝ))] at e
    rw [pow_two]; exact e
  have a0 := sq_nonneg (a.val : ℝ)
  have b0 := sq_nonneg (b.val : ℝ)
  obtain ⟨pf, pe, pn⟩ := sq ha (by linarith)
  obtain ⟨qf, qe, qn⟩ := sq hb (by linarith)
  have pnR : (0 : ℝ) ≤ (a *. a : F32).val := by exact_mod_cast pn
  have qnR : (0 : ℝ) ≤ (b *. b : F32).val := by exact_mod_cast qn
  rw [abs_le] at pe qe
  have tt : (1 / 10 ^ 44 : ℝ) ≤ 1 / 10 := by norm_num
  have top : |(a *. a : F32).val + (b *. b : F32).val| ≤ 64 := by
    rw [abs_of_nonneg (add_nonneg pn qn)]
    have : (((a *. a : F32).val + (b *. b : F32).val : ℚ) : ℝ) ≤ ((64 : ℚ) : ℝ) := by push_cast; linarith
    exact_mod_cast this
  show Close (FP.add (a *. a) (b *. b)) _ _ ∧ 0 ≤ (FP.add (a *. a) (b *. b)).val
  rw [FP.add_fin pf qf]
  obtain ⟨f, e, n⟩ := round_rel (b := (a *. a : F32).isNeg && (b *. b : F32).isNeg) top
  refine ⟨⟨f, ?_⟩, n (add_nonneg pn qn)⟩
  push_cast at e
  rw [abs_of_nonneg (add_nonneg pnR qnR)] at e
  rw [abs_le] at e ⊢
  norm_num at pe qe e ⊢
  constructor <;> linarith

omit [Libm b32] in
/-- The square roots of two near numbers. -/
theorem sqrt_near {s t κ τ : ℝ} (hs : 0 ≤ s) (ht : 0 ≤ t) (hκ : 0 ≤ κ) (hτ : 0 ≤ τ)
    (h : |t - s| ≤ (2 * κ - κ ^ 2) * s + τ ^ 2) : |Real.sqrt t - Real.sqrt s| ≤ κ * Real.sqrt s + τ := by
  have m0 := Real.sqrt_nonneg s
  have ms := Real.sq_sqrt hs
  have n0 := Real.sqrt_nonneg t
  have ns := Real.sq_sqrt ht
  generalize Real.sqrt s = m at *
  generalize Real.sqrt t = n at *
  subst ms ns
  rw [abs_le] at h ⊢
  have k2 := mul_nonneg (sq_nonneg κ) (sq_nonneg m)
  constructor
  · by_contra hc
    have hc : n < m * (1 - κ) - τ := by linarith
    have hy : 0 ≤ m * (1 - κ) - τ := by linarith
    have : n ^ 2 < (m * (1 - κ) - τ) ^ 2 := by
      exact pow_lt_pow_left₀ hc n0 (by norm_num)
    nlinarith [mul_nonneg hτ hy]
  · by_contra hc
    have hc : m * (1 + κ) + τ < n := by linarith
    have : (m * (1 + κ) + τ) ^ 2 < n ^ 2 :=
      pow_lt_pow_left₀ hc (by positivity) (by norm_num)
    nlinarith [mul_nonneg (mul_nonneg m0 (by linarith : 0 ≤ 1 + κ)) hτ]

/-- The chroma: a length in 32-bit numbers. -/
theorem chroma_close (hS : SqrtNear) {a b : F32} (ha : a.fin = true) (hb : b.fin = true)
    (h : (a.val : ℝ) ^ 2 + (b.val : ℝ) ^ 2 ≤ 25) :
    Close (sqrt (a *. a +. b *. b)) (Real.sqrt ((a.val : ℝ) ^ 2 + (b.val : ℝ) ^ 2))
      (Real.sqrt ((a.val : ℝ) ^ 2 + (b.val : ℝ) ^ 2) / 7000000 + 1 / 10 ^ 19) := by
  obtain ⟨sc, s0⟩ := squares_close ha hb h
  have s64 : (a *. a +. b *. b : F32).val ≤ 64 := by
    have e := sc.err
    rw [abs_le] at e
    have : (((a *. a +. b *. b : F32).val : ℚ) : ℝ) ≤ ((64 : ℚ) : ℝ) := by push_cast; norm_num at e ⊢; linarith
    exact_mod_cast this
  have sq := hS _ sc.fin s0 s64
  have s0R : (0 : ℝ) ≤ (a *. a +. b *. b : F32).val := by exact_mod_cast s0
  have r0 : (0 : ℝ) ≤ (a.val : ℝ) ^ 2 + (b.val : ℝ) ^ 2 := by positivity
  have n := sqrt_near (κ := 1.1 / 16777216) (τ := 1 / 10 ^ 20) r0 s0R (by norm_num) (by norm_num)
    (sc.err.trans (by norm_num; linarith))
  have m0 := Real.sqrt_nonneg ((a.val : ℝ) ^ 2 + (b.val : ℝ) ^ 2)
  refine ⟨sq.fin, ?_⟩
  have e := sq.err
  rw [abs_le] at e n ⊢
  norm_num at n e ⊢
  constructor <;> linarith

/-- Lengths and directions of two near points. -/
theorem polar_back {δ : ℝ} (hT : TrigNear δ) (hδ : δ ≤ 1 / 2000000) {m θ : ℝ} {l h : F32}
    (hm : 0 ≤ m) (hm5 : m ≤ 5) (hl : Close l m (m / 7000000 + 1 / 10 ^ 19)) (hθ : |θ| ≤ Real.pi) (hh : Close h θ δ) :
    Close (l *. cos h) (m * Real.cos θ) (10.1 * δ + 1 / 1000000) ∧
    Close (l *. sin h) (m * Real.sin θ) (10.1 * δ + 1 / 1000000) := by
  have δ0 := (abs_nonneg _).trans hh.err
  have h4 : |h.val| ≤ 4 := by
    have e := hh.err
    have p := Real.pi_lt_d2
    have : ((|h.val| : ℚ) : ℝ) ≤ ((4 : ℚ) : ℝ) := by
      push_cast
      rw [abs_le] at e hθ ⊢
      norm_num at p
      constructor <;> linarith
    exact_mod_cast this
  have nl : NearF l m _ 5 := ⟨hl, by rw [abs_of_nonneg hm]; exact hm5⟩
  have nl := nl.mono (d := 0.72 / 1000000) (by norm_num; linarith) le_rfl
  have go : ∀ {x : F32} {c : ℝ}, Close x c (2 * δ) → |c| ≤ 1 → Close (l *. x) (m * c) (10.1 * δ + 1 / 1000000) := by
    intro x c hx hc
    have nx : NearF x c _ 1 := ⟨hx, hc⟩
    refine (nl.mul 3 (by norm_num) nx ?_).is rfl ?_ <;> norm_num <;> nlinarith
  refine ⟨go (close_clamp_exact (hT.cos h hh.fin h4) (d := δ) ?_ |>.mono (by linarith)) (Real.abs_cos_le_one _),
    go (close_clamp_exact (hT.sin h hh.fin h4) (d := δ) ?_ |>.mono (by linarith)) (Real.abs_sin_le_one _)⟩
  · exact (Real.abs_cos_sub_cos_le _ _).trans hh.err
  · exact (Real.abs_sin_sub_sin_le _ _).trans hh.err

/-- C113: XYZ to LCh in 32-bit numbers. The lightness and alpha are those of Lab, the chroma is the length of
(a, b) up to a relative error of 1/7000000 and the hue its direction up to `δ`. -/
theorem C113_to_lch (δ δ' : ℝ) (hL : PowNear δ) (hδ : δ ≤ 1 / 1000000) (hS : SqrtNear) (hT : TrigNear δ')
    (i : Illuminant) (o : Observer) (c : Col F32) (h : XyzRange c) :
    let lab := to_lab i o .xyz c
    let lch := to_lch i o .xyz c
    let m := Real.sqrt ((lab.c1.val : ℝ) ^ 2 + (lab.c2.val : ℝ) ^ 2)
    lch.c0 = lab.c0 ∧ Close lch.c1 m (m / 7000000 + 1 / 10 ^ 19) ∧
    (∃ θ, Direction lab.c1.val lab.c2.val θ ∧ Close lch.c2 θ δ') ∧ lch.alpha = c.alpha ∧ m ≤ 5 := by
  intro lab lch m
  obtain ⟨-, ⟨fA, bA⟩, ⟨fB, bB⟩⟩ := lab_fin hL hδ i o c h
  have top : (lab.c1.val : ℝ) ^ 2 + (lab.c2.val : ℝ) ^ 2 ≤ 25 := by
    have p := pow_le_pow_left₀ (abs_nonneg _) bA 2
    have q := pow_le_pow_left₀ (abs_nonneg _) bB 2
    rw [sq_abs] at p q
    norm_num at p q
    linarith
  refine ⟨rfl, chroma_close hS fA fB top, hT.atan2 _ _ fB fA, rfl, ?_⟩
  exact Real.sqrt_le_iff.2 ⟨by norm_num, top.trans (by norm_num)⟩

/-- XYZ to LCh and back, with how far each channel may reach. -/
theorem lch_trip {δ U0 U1 U2 : ℝ} (hL : PowNear δ) (hδ : δ ≤ 1 / 2000000) (hS : SqrtNear) (hT : TrigNear δ)
    (i : Illuminant) (o : Observer)
    (c : Col F32) (h : XyzRange c) (hU0 : 1 ≤ U0) (hU0' : U0 ≤ 1.106) (hU1 : 1 ≤ U1) (hU1' : U1 ≤ 1.04)
    (hU2 : 1 ≤ U2) (hU2' : U2 ≤ 1.106)
    (k0 : (c.c0.val : ℝ) + 1 / 1000000 ≤ U0 ^ 3 * (whitePoint i o).1)
    (k1 : (c.c1.val : ℝ) + 1 / 1000000 ≤ U1 ^ 3 * (whitePoint i o).2.1)
    (k2 : (c.c2.val : ℝ) + 1 / 1000000 ≤ U2 ^ 3 * (whitePoint i o).2.2) :
    let ε := 10.1 * δ + 1 / 1000000
    let d := to_xyz (.lch i o) (to_lch i o .xyz c)
    Close d.c0 c.c0.val ((1 + 3.01 * U0 ^ 2) * δ + 3.01 * U0 ^ 2 * (8 / 10000000 + 0.256 * ε) + 45 / 100000000) ∧
    Close d.c1 c.c1.val ((1 + 3.01 * U1 ^ 2) * δ + 3.01 * U1 ^ 2 * (8 / 10000000) + 45 / 100000000) ∧
    Close d.c2 c.c2.val (1.0889 * ((1 + 3.01 * U2 ^ 2) * δ + 3.01 * U2 ^ 2 * (8 / 10000000 + 0.64 * ε)) +
      45 / 100000000) ∧ d.alpha = c.alpha := by
  intro ε d
  have δ0 := PowNear.nonneg hL
  have hδ' : δ ≤ 1 / 1000000 := hδ.trans (by norm_num)
  obtain ⟨-, l1, ⟨θ, ⟨t0, t1, t2⟩, l2⟩, -, m5⟩ := C113_to_lch δ δ hL hδ' hS hT i o c h
  obtain ⟨p1, p2⟩ := polar_back hT hδ (Real.sqrt_nonneg _) m5 l1 t0 l2
  exact xyz_trip hL hδ' i o c h hU0 hU0' hU1 hU1' hU2 hU2' k0 k1 k2 _ _ c.alpha (by norm_num [ε]; linarith)
    (by positivity) (p1.congr t1) (p2.congr t2)

/-- C113: XYZ to LCh and back in 32-bit numbers. -/
theorem C113_xyz_round_trip (δ : ℝ) (hL : PowNear δ) (hδ : δ ≤ 1 / 2000000) (hS : SqrtNear) (hT : TrigNear δ)
    (i : Illuminant) (o : Observer) (c : Col F32) (h : XyzRange c) :
    let d := to_xyz (.lch i o) (to_lch i o .xyz c)
    CloseCol (32 * δ + 7 / 1000000) d (exact c) ∧ d.alpha = c.alpha := by
  intro d
  have δ0 := PowNear.nonneg hL
  obtain ⟨w0, w1, w2, b0, b1, b2⟩ := white_near i o
  obtain ⟨d0, d1, d2, -⟩ := lch_trip (U0 := 1.106) (U1 := 1.04) (U2 := 1.106) hL hδ hS hT i o c h (by norm_num)
    (by norm_num) (by norm_num) (by norm_num) (by norm_num) (by norm_num)
    (by have := h.c0.2.2; norm_num at this b0 ⊢; linarith) (by have := h.c1.2.2; rw [b1]; norm_num at this ⊢; linarith)
    (by have := h.c2.2.2; norm_num at this b2 ⊢; linarith)
  refine ⟨⟨d0.mono ?_, d1.mono ?_, d2.mono ?_, close_self h.alpha (by positivity)⟩, rfl⟩ <;> norm_num <;> linarith

variable [Junk]

/-- C113: the lightness and the chroma of RGB to LCh in 32-bit numbers, compared with the exact conversion. -/
theorem C113_rgb_to_lch (δ δ' : ℝ) (hL : PowNear δ) (hδ : δ ≤ 1 / 1000000) (hS : SqrtNear) (hT : TrigNear δ')
    (i : Illuminant) (o : Observer) (c : Col F32) (h : UnitCol c) :
    Close (to_lch i o .rgb c).c0 (to_lch i o .rgb (exact c)).c0 (8 * δ + 5 / 100000) ∧
    Close (to_lch i o .rgb c).c1 (to_lch i o .rgb (exact c)).c1 (12 * δ + 8 / 100000) ∧
    (to_lch i o .rgb c).alpha = c.alpha := by
  have δ0 := PowNear.nonneg hL
  obtain ⟨-, -, -, hr⟩ := rgb_xyz_near c h
  obtain ⟨e0, l1, -, -, m5⟩ := C113_to_lch δ δ' hL hδ hS hT i o _ hr
  obtain ⟨⟨k0, k1, k2, -⟩, ka⟩ := C112_rgb_to_lab δ hL hδ i o c h
  obtain ⟨f0, f1, -⟩ := C72_lch i o .rgb (exact c)
  refine ⟨k0, ?_, ka⟩
  rw [f1]
  have far := abs_norm_sub_norm_le (⟨(to_lab i o .rgb c).c1.val, (to_lab i o .rgb c).c2.val⟩ : ℂ)
    ⟨(to_lab i o .rgb (exact c)).c1, (to_lab i o .rgb (exact c)).c2⟩
  have nf : ∀ x y : ℝ, ‖(⟨x, y⟩ : ℂ)‖ = Real.sqrt (x ^ 2 + y ^ 2) := fun x y => by
    rw [Complex.norm_def, Complex.normSq_mk]; ring_nf
  have sb : ∀ x y u v : ℝ, (⟨x, y⟩ : ℂ) - ⟨u, v⟩ = ⟨x - u, y - v⟩ := fun _ _ _ _ => rfl
  rw [sb, nf, nf, nf] at far
  have near : Real.sqrt ((((to_lab i o .rgb c).c1.val : ℝ) - (to_lab i o .rgb (exact c)).c1) ^ 2 +
      (((to_lab i o .rgb c).c2.val : ℝ) - (to_lab i o .rgb (exact c)).c2) ^ 2) ≤ 1.42 * (8 * δ + 5 / 100000) := by
    rw [Real.sqrt_le_iff]
    have p := pow_le_pow_left₀ (abs_nonneg _) k1.err 2
    have q := pow_le_pow_left₀ (abs_nonneg _) k2.err 2
    rw [sq_abs] at p q
    have r := sq_nonneg (8 * δ + 5 / 100000)
    refine ⟨by positivity, (add_le_add p q).trans ?_⟩
    rw [mul_pow]; norm_num; linarith
  refine (close_clamp_exact l1 (far.trans near)).mono ?_
  have m5' : Real.sqrt (((to_lab i o .rgb c).c1.val : ℝ) ^ 2 + ((to_lab i o .rgb c).c2.val : ℝ) ^ 2) ≤ 5 := m5
  change Real.sqrt (((to_lab i o .rgb c).c1.val : ℝ) ^ 2 + ((to_lab i o .rgb c).c2.val : ℝ) ^ 2) / 7000000 + _ + _ ≤ _
  norm_num; linarith

/-- C113: RGB to LCh and back in 32-bit numbers is within 6.5·10^-5 of the colour, with the same alpha, for every
white point, when the platform's functions are within 2^-22. -/
theorem C113_lch_round_trip (hL : PowNear (1 / 4194304)) (hS : SqrtNear) (hT : TrigNear (1 / 4194304))
    (i : Illuminant) (o : Observer) (c : Col F32) (h : UnitCol c) :
    let d := to_rgb (.lch i o) (to_lch i o .rgb c)
    CloseCol (65 / 1000000) d (exact c) ∧ d.alpha = c.alpha := by
  intro d
  have hδ : (1 / 4194304 : ℝ) ≤ 1 / 1000000 := by norm_num
  obtain ⟨n0, n1, n2, hr⟩ := rgb_xyz_near c h
  obtain ⟨-, -, -, -, -, b2⟩ := white_near i o
  obtain ⟨k0, k1, k2⟩ := rgb_xyz_top i o c h
  obtain ⟨d0, d1, d2, da⟩ := lch_trip (U0 := 1.001) (U1 := 1.001) (U2 := 1.102) hL (by norm_num) hS hT i o _ hr
    (by norm_num) (by norm_num) (by norm_num) (by norm_num) (by norm_num) (by norm_num) (by linarith) (by linarith)
    (by linarith)
  have c0 := d0.mono (d := 66 / 10000000) (by norm_num)
  have c1 := d1.mono (d := 39 / 10000000) (by norm_num)
  have c2 : Close (to_xyz (.lch i o) (to_lch i o .rgb c)).c2 _ _ := d2.mono (d := 139 / 10000000) (by norm_num)
  have x0 : (0 : ℝ) ≤ c.c0.val := by exact_mod_cast h.c0.2.1
  have y0 : (0 : ℝ) ≤ c.c1.val := by exact_mod_cast h.c1.2.1
  have z0 : (0 : ℝ) ≤ c.c2.val := by exact_mod_cast h.c2.2.1
  have rg : ∀ {x y : F32} {q e B : ℝ}, NearF y q (27 / 100000000) B → 0 ≤ q → B ≤ 1.09 → Close x y.val e →
      e ≤ 2 / 100000 → x.fin = true ∧ -0.0001 ≤ (x.val : ℝ) ∧ (x.val : ℝ) ≤ 1.1 := fun {x y q e B} n hq hB hx he => by
    have a := n.close.err
    have b := n.le
    have d := hx.err
    rw [abs_le] at a b d
    norm_num at hB ⊢
    exact ⟨hx.fin, by linarith, by linarith⟩
  have hr' : XyzRange (to_xyz (.lch i o) (to_lch i o .rgb c)) :=
    ⟨rg n0 (by positivity) (by norm_num) c0 (by norm_num), rg n1 (by positivity) (by norm_num) c1 (by norm_num),
      rg n2 (by positivity) (by norm_num) c2 (by norm_num), h.alpha.1⟩
  have up : ∀ {x : F32} {v e t : ℝ}, Close x v e → v + 1 / 1000000 ≤ t - 1 / 100000 → e ≤ 1 / 100000 →
      (x.val : ℝ) + 1 / 1000000 ≤ t := fun {x v e t} hx h1 h2 => by
    have d := hx.err
    rw [abs_le] at d
    linarith
  obtain ⟨-, ⟨fA, -⟩, ⟨fB, -⟩⟩ := lab_fin hL hδ i o _ hr'
  obtain ⟨g0, g1, g2, -⟩ := xyz_trip (U0 := 1.001) (U1 := 1.001) (U2 := 1.103) (ε := 0) hL hδ i o _ hr' (by norm_num)
    (by norm_num) (by norm_num) (by norm_num) (by norm_num) (by norm_num) (up c0 k0 (by norm_num))
    (up c1 k1 (by norm_num)) (by have q := c2.err; rw [abs_le] at q; norm_num at k2 b2 ⊢; linarith)
    _ _ c.alpha (by norm_num) le_rfl (close_self fA le_rfl) (close_self fB le_rfl)
  have e0 := (close_clamp_exact g0 c0.err).mono (d := 105 / 10000000) (by norm_num)
  have e1 := (close_clamp_exact g1 c1.err).mono (d := 78 / 10000000) (by norm_num)
  have e2 := (close_clamp_exact g2 c2.err).mono (d := 190 / 10000000) (by norm_num)
  obtain ⟨-, r0, r1, r2⟩ := rgb_of_xyz h e0 e1 e2 rfl (by norm_num) (by norm_num) (by norm_num)
  exact ⟨⟨r0.mono (by norm_num), r1.mono (by norm_num), r2.mono (by norm_num), close_self h.alpha.1 (by norm_num)⟩, rfl⟩

end

/-! ## The hypotheses can be met -/

/-- The library functions of `nearestLab` meet the conditions. -/
theorem nearestLab_sqrt : letI := nearestLab; SqrtNear := by
  let := nearestLab
  intro x hx h0 h1
  have r0 := Real.sqrt_nonneg (x.val : ℝ)
  have e := Classical.choose_spec (exists_rat_near (Real.sqrt x.val)
    (show (0 : ℝ) < |Real.sqrt x.val| / 10 ^ 10 + 1 / 10 ^ 31 by positivity))
  set q := Classical.choose (exists_rat_near (Real.sqrt x.val)
    (show (0 : ℝ) < |Real.sqrt x.val| / 10 ^ 10 + 1 / 10 ^ 31 by positivity)) with hq
  have r8 : Real.sqrt (x.val : ℝ) ≤ 8 := by
    rw [Real.sqrt_le_iff]
    have : ((x.val : ℚ) : ℝ) ≤ ((64 : ℚ) : ℝ) := by exact_mod_cast h1
    exact ⟨by norm_num, by norm_num at this ⊢; exact this⟩
  rw [abs_of_nonneg r0] at e
  have eb := e.le
  rw [abs_le] at eb
  have qb : |(q : ℝ)| ≤ Real.sqrt x.val * (1 + 1 / 10 ^ 10) + 1 / 10 ^ 31 := by
    rw [abs_le]; constructor <;> linarith
  have q64 : |q| ≤ 64 := by
    have : ((|q| : ℚ) : ℝ) ≤ ((64 : ℚ) : ℝ) := by push_cast; norm_num at qb ⊢; linarith
    exact_mod_cast this
  obtain ⟨f, g, -⟩ := round_rel (b := false) q64
  refine ⟨f, ?_⟩
  show |((FP.ofRat b32 false q).val : ℝ) - _| ≤ _
  rw [abs_le] at g ⊢
  norm_num at g qb eb ⊢
  constructor <;> linarith

theorem nearestLab_trig : letI := nearestLab; TrigNear (1 / 4194304) := by
  let := nearestLab
  have near : ∀ r : ℝ, |r| ≤ 3.9 → Close (nearestF r) r (1 / 4194304) := fun r hr => nearestF_close hr
  refine ⟨fun x _ _ => near _ ((Real.abs_cos_le_one _).trans (by norm_num)),
    fun x _ _ => near _ ((Real.abs_sin_le_one _).trans (by norm_num)), fun y x _ _ =>
    ⟨Complex.arg ⟨x.val, y.val⟩, ⟨Complex.abs_arg_le_pi _, ?_, ?_⟩, near _ ?_⟩⟩
  · rw [show Real.sqrt ((x.val : ℝ) ^ 2 + (y.val : ℝ) ^ 2) = ‖(⟨x.val, y.val⟩ : ℂ)‖ by
      rw [Complex.norm_def, Complex.normSq_mk]; ring_nf]
    exact Complex.norm_mul_cos_arg _
  · rw [show Real.sqrt ((x.val : ℝ) ^ 2 + (y.val : ℝ) ^ 2) = ‖(⟨x.val, y.val⟩ : ℂ)‖ by
      rw [Complex.norm_def, Complex.normSq_mk]; ring_nf]
    exact Complex.norm_mul_sin_arg _
  · have := Complex.abs_arg_le_pi ⟨x.val, y.val⟩
    have p := Real.pi_lt_d2
    norm_num at p ⊢
    linarith

/-- Non-vacuity: with these functions the round trip through LCh applies to the colour. -/
example [Junk] : letI := nearestLab
    CloseCol (65 / 1000000) (to_rgb (.lch .D50 .O2) (to_lch .D50 .O2 .rgb labSample)) (exact labSample) := by
  let := nearestLab
  exact (C113_lch_round_trip nearestLab_pow nearestLab_sqrt nearestLab_trig _ _ _ labSample_unit).1

/-- Non-vacuity of the range of XYZ values. -/
example : letI := nearestLab
    CloseCol (32 * (1 / 4194304) + 7 / 1000000) (to_xyz (.lch .D65 .O10) (to_lch .D65 .O10 .xyz (to_xyz .rgb labSample)))
      (exact (to_xyz .rgb labSample)) := by
  let := nearestLab
  exact (C113_xyz_round_trip _ nearestLab_pow (by norm_num) nearestLab_sqrt nearestLab_trig _ _ _
    (rgb_xyz_near _ labSample_unit).2.2.2).1

end D10
