import Verif.SpecAccuracy
import Verif.Props.Accuracy
import Verif.Props.NeutralFloat

/-!
# C149: compositing with 32-bit numbers

The end points of compositing (`C35_ends`) stay exact with 32-bit numbers, staying between the two colours (`C35_between`) does not.
-/

namespace D10
open Spec
open Scalar (lit)

section
variable [Libm b32]

theorem times_nothing {m t : F32} (hm : m.fin = true) (ht : t.fin = true) (t0 : t.val = 0) :
    (m *. t).fin = true ∧ (m *. t).val = 0 ∧ (t *. m).fin = true ∧ (t *. m).val = 0 := by
  have e1 : (m *. t : F32) = FP.ofRat b32 (m.isNeg ^^ t.isNeg) 0 := by
    show FP.mul m t = _
    rw [FP.mul_fin hm ht, t0, mul_zero]
  have e2 : (t *. m : F32) = FP.ofRat b32 (t.isNeg ^^ m.isNeg) 0 := by
    show FP.mul t m = _
    rw [FP.mul_fin ht hm, t0, zero_mul]
  rw [e1, e2, FP.ofRat_zero, FP.ofRat_zero]
  exact ⟨rfl, rfl, rfl, rfl⟩

theorem full_times {m t : F32} (hm : m.fin = true) (ht : t.fin = true) (t1 : t.val = 1) : (t *. m).fin = true ∧ (t *. m).val = m.val := by
  obtain ⟨r, l⟩ := FP.fin_rep hm
  have e : (t *. m : F32) = FP.ofRat b32 (t.isNeg ^^ m.isNeg) m.val := by
    show FP.mul t m = _
    rw [FP.mul_fin ht hm, t1, one_mul]
  rw [e]
  exact FP.ofRat_rep r l

theorem sum_one_side {x y : F32} (hx : x.fin = true) (hy : y.fin = true) {v : F32} (hv : Chan v) (e : x.val + y.val = v.val) :
    (clamp01 (x +. y) : F32).val = v.val := by
  obtain ⟨r, l⟩ := FP.fin_rep hv.1
  have k : (x +. y : F32) = FP.ofRat b32 (x.isNeg && y.isNeg) v.val := by
    show FP.add x y = _
    rw [FP.add_fin hx hy, e]
  obtain ⟨a, b⟩ := FP.ofRat_rep (s := x.isNeg && y.isNeg) r l
  rw [← k] at a b
  rw [(NearF.clamp_fin a).2, b, min_eq_right hv.2.2, max_eq_right hv.2.1]

/-- The alpha of the result: the sum rounded, at most 1. -/
theorem alpha_sum {x y : F32} (hx : Chan x) (hy : Chan y) :
    (clamp01 (Scalar.min (x +. y) (lit 1)) : F32).val = min (rn b32 (x.val + y.val)) 1 := by
  have e : (x +. y : F32) = FP.ofRat b32 (x.isNeg && y.isNeg) (x.val + y.val) := by
    show FP.add x y = _
    rw [FP.add_fin hx.1 hy.1]
  have p : pow2 1 = 2 := by rw [pow2_eq]; norm_num
  obtain ⟨a, b⟩ := FP.ofRat_small (s := x.isNeg && y.isNeg) (q := x.val + y.val) (k := 1) (by decide) (by decide)
    (by rw [p, abs_of_nonneg (add_nonneg hx.2.1 hy.2.1)]; linarith [hx.2.2, hy.2.2])
  rw [← e] at a b
  have l1 : (lit 1 : F32).fin = true ∧ (lit 1 : F32).val = 1 := FP.lit1
  obtain ⟨m0, m1⟩ := NearF.min_fin a l1.1
  rw [(NearF.clamp_fin m0).2, m1, b, l1.2, min_eq_right (min_le_right _ _), max_eq_right]
  exact le_min (rn_nonneg (add_nonneg hx.2.1 hy.2.1)) (by norm_num)

theorem complement_end {t : F32} (ht : Chan t) : (t.val = 1 → (lit 1 -. t : F32).val = 0) ∧ (t.val = 0 → (lit 1 -. t : F32).val = 1) := by
  obtain ⟨-, -, e, -⟩ := complement_is ht
  refine ⟨fun h => ?_, fun h => ?_⟩
  · rw [e, h, sub_self, rn_zero]
  · rw [e, h, sub_zero]
    exact rn_rep (by have := IsRep.pow2 (f := b32) (k := 0) (by decide); rwa [show pow2 0 = 1 from rfl] at this)

/-- **The ends are exact**: an opaque colour hides what is below, a transparent one changes nothing. -/
theorem C149_ends (c o : Col F32) (hc : UnitCol c) (ho : UnitCol o) :
    (o.alpha.val = 1 → exact (Rgb.alpha_blend c o) = exact o) ∧ (o.alpha.val = 0 → exact (Rgb.alpha_blend c o) = exact c) := by
  have hk := (complement_is (x := o.alpha) ho.alpha).2.1
  have one : IsRep b32 1 := by have := IsRep.pow2 (f := b32) (k := 0) (by decide); rwa [show pow2 0 = 1 from rfl] at this
  have all : ∀ d : Col F32, (Rgb.alpha_blend c o).c0.val = d.c0.val → (Rgb.alpha_blend c o).c1.val = d.c1.val →
      (Rgb.alpha_blend c o).c2.val = d.c2.val → (Rgb.alpha_blend c o).alpha.val = d.alpha.val →
      exact (Rgb.alpha_blend c o) = exact d := by
    intro d e0 e1 e2 e3
    simp only [exact, e0, e1, e2, e3]
  constructor
  · intro h
    have kz := (complement_end ho.alpha).1 h
    have key : ∀ {v w : F32}, Chan v → Chan w → (clamp01 (w *. o.alpha +. (lit 1 -. o.alpha) *. v) : F32).val = w.val := by
      intro v w hv hw
      obtain ⟨a0, a1⟩ := times_full hw.1 ho.alpha.1 h
      obtain ⟨-, -, b0, b1⟩ := times_nothing hv.1 hk.1 kz
      exact sum_one_side a0 b0 hw (by rw [a1, b1, add_zero])
    refine all o (key hc.c0 ho.c0) (key hc.c1 ho.c1) (key hc.c2 ho.c2) ?_
    have e : (Rgb.alpha_blend c o).alpha.val = min (rn b32 (c.alpha.val + o.alpha.val)) 1 := alpha_sum hc.alpha ho.alpha
    rw [e, h]
    exact min_eq_right (rep_le_rn one (by linarith [hc.alpha.2.1]))
  · intro h
    have kz := (complement_end ho.alpha).2 h
    have key : ∀ {v w : F32}, Chan v → Chan w → (clamp01 (w *. o.alpha +. (lit 1 -. o.alpha) *. v) : F32).val = v.val := by
      intro v w hv hw
      obtain ⟨a0, a1, -, -⟩ := times_nothing hw.1 ho.alpha.1 h
      obtain ⟨b0, b1⟩ := full_times hv.1 hk.1 kz
      exact sum_one_side a0 b0 hv (by rw [a1, b1, zero_add])
    refine all c (key hc.c0 ho.c0) (key hc.c1 ho.c1) (key hc.c2 ho.c2) ?_
    have e : (Rgb.alpha_blend c o).alpha.val = min (rn b32 (c.alpha.val + o.alpha.val)) 1 := alpha_sum hc.alpha ho.alpha
    rw [e, h, add_zero, rn_rep (FP.fin_rep hc.alpha.1).1]
    exact min_eq_left hc.alpha.2.2

/-- **The alpha** is the sum of both, rounded to the nearest 32-bit number and limited to 1: never below either of them. -/
theorem C149_alpha (c o : Col F32) (hc : UnitCol c) (ho : UnitCol o) :
    (Rgb.alpha_blend c o).alpha.val = min (rn b32 (c.alpha.val + o.alpha.val)) 1 ∧
    c.alpha.val ≤ (Rgb.alpha_blend c o).alpha.val ∧ o.alpha.val ≤ (Rgb.alpha_blend c o).alpha.val ∧
    (Rgb.alpha_blend c o).alpha.val ≤ 1 := by
  have e : (Rgb.alpha_blend c o).alpha.val = min (rn b32 (c.alpha.val + o.alpha.val)) 1 := alpha_sum hc.alpha ho.alpha
  rw [e]
  exact ⟨rfl, le_min (rep_le_rn (FP.fin_rep hc.alpha.1).1 (by linarith [ho.alpha.2.1])) hc.alpha.2.2,
    le_min (rep_le_rn (FP.fin_rep ho.alpha.1).1 (by linarith [hc.alpha.2.1])) ho.alpha.2.2, min_le_right _ _⟩

end

/-- The number a byte stands for. -/
def byteChannel (k : ℕ) : F32 := FP.ofRat b32 false (k / 255)

/-- **Not between**: a partly transparent colour over the same colour can be brighter, and it can be darker, than this colour.
Both happen with values of byte pictures. -/
theorem C149_not_between (lib : Libm b32) : letI := lib
    let c : Col F32 := ⟨byteChannel 1, byteChannel 1, byteChannel 1, byteChannel 255⟩
    let over (k : ℕ) : Col F32 := ⟨byteChannel 1, byteChannel 1, byteChannel 1, byteChannel k⟩
    (exact c).c0 < (exact (Rgb.alpha_blend c (over 80))).c0 ∧ (exact (Rgb.alpha_blend c (over 97))).c0 < (exact c).c0 := by
  let _ := lib
  intro c over
  have raw : ∀ k, k = 80 ∨ k = 97 →
      (FP.add (FP.mul (byteChannel 1) (byteChannel k)) (FP.mul (FP.sub (FP.ofRat b32 false 1) (byteChannel k)) (byteChannel 1))).fin = true ∧
      0 ≤ (FP.add (FP.mul (byteChannel 1) (byteChannel k)) (FP.mul (FP.sub (FP.ofRat b32 false 1) (byteChannel k)) (byteChannel 1))).val ∧
      (FP.add (FP.mul (byteChannel 1) (byteChannel k)) (FP.mul (FP.sub (FP.ofRat b32 false 1) (byteChannel k)) (byteChannel 1))).val ≤ 1 := by
    rintro k (rfl | rfl) <;> decide +kernel
  have val : ∀ k, k = 80 ∨ k = 97 → (Rgb.alpha_blend c (over k)).c0.val =
      (FP.add (FP.mul (byteChannel 1) (byteChannel k)) (FP.mul (FP.sub (FP.ofRat b32 false 1) (byteChannel k)) (byteChannel 1))).val := by
    intro k hk
    obtain ⟨a, b, d⟩ := raw k hk
    show (clamp01 (FP.add (FP.mul (byteChannel 1) (byteChannel k)) (FP.mul (FP.sub (FP.ofRat b32 false 1) (byteChannel k)) (byteChannel 1))) : F32).val = _
    rw [(NearF.clamp_fin a).2, min_eq_right d, max_eq_right b]
  constructor
  · show ((byteChannel 1).val : ℝ) < ((Rgb.alpha_blend c (over 80)).c0.val : ℝ)
    rw [val 80 (.inl rfl)]
    have : (byteChannel 1).val < (FP.add (FP.mul (byteChannel 1) (byteChannel 80))
        (FP.mul (FP.sub (FP.ofRat b32 false 1) (byteChannel 80)) (byteChannel 1))).val := by decide +kernel
    exact_mod_cast this
  · show ((Rgb.alpha_blend c (over 97)).c0.val : ℝ) < ((byteChannel 1).val : ℝ)
    rw [val 97 (.inr rfl)]
    have : (FP.add (FP.mul (byteChannel 1) (byteChannel 97))
        (FP.mul (FP.sub (FP.ofRat b32 false 1) (byteChannel 97)) (byteChannel 1))).val < (byteChannel 1).val := by decide +kernel
    exact_mod_cast this

/-- Non-vacuity: colours in the range, one opaque and one transparent. -/
example : UnitCol (⟨darkest, darkest, darkest, FP.ofRat b32 false 1⟩ : Col F32) ∧ UnitCol (⟨darkest, darkest, darkest, FP.ofRat b32 false 0⟩ : Col F32) ∧
    (FP.ofRat b32 false 1).val = 1 ∧ (FP.ofRat b32 false 0).val = 0 := by
  have u1 : Chan (FP.ofRat b32 false 1) := ⟨FP.lit1.1, by rw [FP.lit1.2]; norm_num, by rw [FP.lit1.2]⟩
  have u0 : Chan (FP.ofRat b32 false 0) := ⟨FP.lit0.1, by rw [FP.lit0.2], by rw [FP.lit0.2]; norm_num⟩
  exact ⟨⟨darkest_chan, darkest_chan, darkest_chan, u1⟩, ⟨darkest_chan, darkest_chan, darkest_chan, u0⟩, FP.lit1.2, FP.lit0.2⟩

end D10
