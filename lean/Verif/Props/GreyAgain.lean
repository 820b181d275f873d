import Verif.SpecAccuracy
import Verif.Props.Accuracy
import Verif.Props.BlendLawsFloat

/-!
# C146: a gray picture made gray again, with 32-bit numbers

With exact numbers a gray colour stays what it is (`C27_gray_stays`).  With 32-bit numbers this holds of some of the intensities only.
-/

namespace D10
open Spec
open Scalar (lit)

/-- The three channels stand for the same number. -/
def Spec.GrayCol (c : Col F32) : Prop := c.c0.val = c.c1.val ∧ c.c1.val = c.c2.val

section
variable [Libm b32]

theorem gray_max {c : Col F32} (h : UnitCol c) (g : GrayCol c) : (Rgb.max c).fin = true ∧ (Rgb.max c).val = c.c0.val := by
  obtain ⟨a0, a1⟩ := NearF.max_fin FP.lit0.1 h.c0.1
  obtain ⟨b0, b1⟩ := NearF.max_fin a0 h.c1.1
  obtain ⟨d0, d1⟩ := NearF.max_fin b0 h.c2.1
  refine ⟨d0, ?_⟩
  show (Scalar.max (Scalar.max (Scalar.max (FP.ofRat b32 false 0) c.c0) c.c1) c.c2).val = _
  rw [d1, b1, a1, FP.lit0.2, ← g.2, ← g.1]
  simp [h.c0.2.1]

theorem gray_min {c : Col F32} (h : UnitCol c) (g : GrayCol c) : (Rgb.min c).fin = true ∧ (Rgb.min c).val = c.c0.val := by
  obtain ⟨a0, a1⟩ := NearF.min_fin FP.lit1.1 h.c0.1
  obtain ⟨b0, b1⟩ := NearF.min_fin a0 h.c1.1
  obtain ⟨d0, d1⟩ := NearF.min_fin b0 h.c2.1
  refine ⟨d0, ?_⟩
  show (Scalar.min (Scalar.min (Scalar.min (FP.ofRat b32 false 1) c.c0) c.c1) c.c2).val = _
  rw [d1, b1, a1, FP.lit1.2, ← g.2, ← g.1]
  simp [h.c0.2.2]

/-- Half of a number and itself is that number. -/
theorem half_twice {x y : F32} (hx : x.fin = true) (hy : y.fin = true) (e : y.val = x.val) (h0 : 0 ≤ x.val) (h1 : x.val ≤ 1) :
    ((x +. y) /. lit 2 : F32).fin = true ∧ ((x +. y) /. lit 2 : F32).val = x.val := by
  obtain ⟨r, l⟩ := FP.fin_rep hx
  have two : (FP.ofRat b32 false 2).fin = true ∧ (FP.ofRat b32 false 2).val = 2 := by
    have := FP.lit32 2 (by norm_num); simpa using this
  have s : (x +. y : F32).fin = true ∧ (x +. y : F32).val = 2 * x.val := by
    have es : (x +. y : F32) = FP.ofRat b32 (x.isNeg && y.isNeg) (2 * x.val) := by
      show FP.add x y = _
      rw [FP.add_fin hx hy, e, two_mul]
    rw [es]
    refine FP.ofRat_rep ?_ ?_
    · obtain ⟨m, k, hm, hk, hv⟩ := r
      refine ⟨m, k + 1, hm, by omega, ?_⟩
      rw [hv, pow2_succ]; ring
    · rw [FP.pow2_b32, abs_of_nonneg (by linarith)]; linarith
  have ed : ((x +. y) /. lit 2 : F32) = FP.ofRat b32 ((x +. y : F32).isNeg ^^ (FP.ofRat b32 false 2).isNeg) x.val := by
    show FP.div (x +. y) (FP.ofRat b32 false 2) = _
    rw [FP.div_fin s.1 two.1 (by rw [two.2]; norm_num), s.2, two.2]
    congr 1; ring
  rw [ed]
  exact FP.ofRat_rep r l

/-- **Exact**: by the brightness, the lightness or one of the channels a gray colour is made the same colour. -/
theorem C146_exact (c : Col F32) (h : UnitCol c) (g : GrayCol c) (i : Intensity)
    (hi : i ∈ [Intensity.Brightness, .Lightness, .Red, .Green, .Blue]) :
    exact (Rgb.to_gray_with_intensity c i) = exact c := by
  have key : ∀ v : F32, v.val = c.c0.val → exact (⟨v, v, v, c.alpha⟩ : Col F32) = exact c := by
    intro v e
    simp only [exact, ← g.2, ← g.1, e]
  simp only [List.mem_cons, List.not_mem_nil, or_false] at hi
  rcases hi with rfl | rfl | rfl | rfl | rfl
  · exact key _ (gray_max h g).2
  · obtain ⟨a0, a1⟩ := gray_min h g
    obtain ⟨b0, b1⟩ := gray_max h g
    refine key _ ?_
    rw [(half_twice a0 b0 (by rw [b1, a1]) (by rw [a1]; exact h.c0.2.1) (by rw [a1]; exact h.c0.2.2)).2, a1]
  · exact key _ rfl
  · exact key _ g.1.symm
  · exact key _ (g.1.trans g.2).symm

variable [Junk] in
/-- **Close**: by any intensity but the saturation a gray colour is made a colour within 2⁻²⁰ of it. -/
theorem C146_close (c : Col F32) (h : UnitCol c) (g : GrayCol c) (i : Intensity) (hi : i ≠ .Saturation) :
    CloseCol (1 / 1048576) (Rgb.to_gray_with_intensity c i) (exact c) := by
  have k := C86_gray c i hi h
  have e : exact c = ⟨(c.c0.val : ℝ), (c.c0.val : ℝ), (c.c0.val : ℝ), (c.alpha.val : ℝ)⟩ := by
    simp only [exact, ← g.2, ← g.1]
  have u := exact_unit h
  rw [e] at u k ⊢
  have s := C27_gray_stays _ _ u i
  rw [if_neg hi] at s
  rwa [s] at k

end

/-- A 32-bit number just below white. -/
def nearWhite : F32 := FP.ofRat b32 false (8388607 / 8388608)

theorem nearWhite_is : nearWhite.fin = true ∧ nearWhite.val = 8388607 / 8388608 := by
  decide +kernel

/-- **Not exact**: there is a gray colour whose average of the channels is another number. -/
theorem C146_average_moves :
    ∃ c : Col F32, UnitCol c ∧ GrayCol c ∧
      ∀ lib : Libm b32, letI := lib
        (exact (Rgb.to_gray_with_intensity c .Average)).c0 ≠ (exact c).c0 := by
  have u : nearWhite.fin = true ∧ 0 ≤ nearWhite.val ∧ nearWhite.val ≤ 1 := by
    rw [nearWhite_is.2]; exact ⟨nearWhite_is.1, by norm_num, by norm_num⟩
  refine ⟨⟨nearWhite, nearWhite, nearWhite, nearWhite⟩, ⟨u, u, u, u⟩, ⟨rfl, rfl⟩, ?_⟩
  intro lib
  let _ := lib
  have e : (FP.div (FP.add (FP.add nearWhite nearWhite) nearWhite) (FP.ofRat b32 false 3)).val ≠ nearWhite.val := by
    decide +kernel
  intro q
  refine e ?_
  have : (((FP.div (FP.add (FP.add nearWhite nearWhite) nearWhite) (FP.ofRat b32 false 3)).val : ℚ) : ℝ) = (nearWhite.val : ℝ) := q
  exact_mod_cast this

/-- Black and white stay what they are by every intensity but the saturation. -/
theorem C146_black_white (lib : Libm b32) (i : Intensity) (hi : i ≠ .Saturation) (a : F32)
    (ha : a.fin = true ∧ 0 ≤ a.val ∧ a.val ≤ 1) :
    letI := lib
    exact (Rgb.to_gray_with_intensity (⟨lit 0, lit 0, lit 0, a⟩ : Col F32) i) = ⟨0, 0, 0, a.val⟩ ∧
    exact (Rgb.to_gray_with_intensity (⟨lit 1, lit 1, lit 1, a⟩ : Col F32) i) = ⟨1, 1, 1, a.val⟩ := by
  let _ := lib
  have key : ∀ (c : Col F32) (q : ℚ), (Rgb.to_gray_with_intensity c i).c0.val = q →
      exact (Rgb.to_gray_with_intensity c i) = ⟨q, q, q, c.alpha.val⟩ := by
    intro c q e; rw [← e]; rfl
  have u0 : UnitCol (⟨lit 0, lit 0, lit 0, a⟩ : Col F32) := by
    have z : (lit 0 : F32).fin = true ∧ 0 ≤ (lit 0 : F32).val ∧ (lit 0 : F32).val ≤ 1 := by
      show (FP.ofRat b32 false 0).fin = true ∧ 0 ≤ (FP.ofRat b32 false 0).val ∧ (FP.ofRat b32 false 0).val ≤ 1
      rw [FP.lit0.2]; exact ⟨FP.lit0.1, by norm_num, by norm_num⟩
    exact ⟨z, z, z, ha⟩
  have u1 : UnitCol (⟨lit 1, lit 1, lit 1, a⟩ : Col F32) := by
    have z : (lit 1 : F32).fin = true ∧ 0 ≤ (lit 1 : F32).val ∧ (lit 1 : F32).val ≤ 1 := by
      show (FP.ofRat b32 false 1).fin = true ∧ 0 ≤ (FP.ofRat b32 false 1).val ∧ (FP.ofRat b32 false 1).val ≤ 1
      rw [FP.lit1.2]; exact ⟨FP.lit1.1, by norm_num, by norm_num⟩
    exact ⟨z, z, z, ha⟩
  have x0 : exact (⟨lit 0, lit 0, lit 0, a⟩ : Col F32) = ⟨0, 0, 0, a.val⟩ := by
    have e : (lit 0 : F32).val = 0 := FP.lit0.2
    simp only [exact, e, Rat.cast_zero]
  have x1 : exact (⟨lit 1, lit 1, lit 1, a⟩ : Col F32) = ⟨1, 1, 1, a.val⟩ := by
    have e : (lit 1 : F32).val = 1 := FP.lit1.2
    simp only [exact, e, Rat.cast_one]
  by_cases m : i ∈ [Intensity.Brightness, .Lightness, .Red, .Green, .Blue]
  · rw [C146_exact _ u0 ⟨rfl, rfl⟩ i m, C146_exact _ u1 ⟨rfl, rfl⟩ i m]
    exact ⟨x0, x1⟩
  have z0 : ((0 : ℚ) : ℝ) = 0 := Rat.cast_zero
  have z1 : ((1 : ℚ) : ℝ) = 1 := Rat.cast_one
  have all : (Rgb.to_gray_with_intensity (⟨lit 0, lit 0, lit 0, a⟩ : Col F32) i).c0.val = 0 ∧
      (Rgb.to_gray_with_intensity (⟨lit 1, lit 1, lit 1, a⟩ : Col F32) i).c0.val = 1 := by
    cases i
    case Rec601Luma =>
      have k : ∀ v : Bool, (FP.add (FP.add (FP.mul (FP.ofRat b32 false v.toNat) (FP.ofRat b32 false 0.298839)) (FP.mul (FP.ofRat b32 false v.toNat) (FP.ofRat b32 false 0.586811))) (FP.mul (FP.ofRat b32 false v.toNat) (FP.ofRat b32 false 0.114350))).val = v.toNat := by
        decide +kernel
      exact ⟨k false, k true⟩
    case Rec709Luma =>
      have k : ∀ v : Bool, (FP.add (FP.add (FP.mul (FP.ofRat b32 false v.toNat) (FP.ofRat b32 false 0.212656)) (FP.mul (FP.ofRat b32 false v.toNat) (FP.ofRat b32 false 0.715158))) (FP.mul (FP.ofRat b32 false v.toNat) (FP.ofRat b32 false 0.072186))).val = v.toNat := by
        decide +kernel
      exact ⟨k false, k true⟩
    case Average =>
      have k : ∀ v : Bool, (FP.div (FP.add (FP.add (FP.ofRat b32 false v.toNat) (FP.ofRat b32 false v.toNat)) (FP.ofRat b32 false v.toNat)) (FP.ofRat b32 false 3)).val = v.toNat := by
        decide +kernel
      exact ⟨k false, k true⟩
    case Saturation => exact absurd rfl hi
    all_goals exact absurd (by simp) m
  rw [key _ _ all.1, key _ _ all.2, z0, z1]
  exact ⟨rfl, rfl⟩

/-- Non-vacuity: a gray colour in the range. -/
example : UnitCol (⟨nearWhite, nearWhite, nearWhite, nearWhite⟩ : Col F32) ∧
    GrayCol (⟨nearWhite, nearWhite, nearWhite, nearWhite⟩ : Col F32) := by
  have u : nearWhite.fin = true ∧ 0 ≤ nearWhite.val ∧ nearWhite.val ≤ 1 := by
    rw [nearWhite_is.2]; exact ⟨nearWhite_is.1, by norm_num, by norm_num⟩
  exact ⟨⟨u, u, u, u⟩, rfl, rfl⟩

end D10
