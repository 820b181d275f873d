import Verif.SpecAccuracy
import Verif.Props.Accuracy
import Verif.Props.ColorEq
import Verif.Props.Buffer

/-!
# C147: the negative of a negative, with 32-bit numbers

`1 - (1 - v)` is `v` for exact numbers.  With 32-bit numbers digits of dark channels are lost, once and not again.
-/

namespace D10
open Spec
open Scalar (lit)

/-- The steps of 2⁻²⁴ between 0 and 1. -/
def Spec.OnGrid (q : ℚ) : Prop := ∃ n : ℤ, q = n / 16777216

theorem grid_rep {q : ℚ} (h : OnGrid q) (h0 : 0 ≤ q) (h1 : q ≤ 1) : IsRep b32 q := by
  obtain ⟨n, rfl⟩ := h
  have n0 : 0 ≤ n := by
    have : (0 : ℚ) ≤ n := by
      by_contra k
      have : (n : ℚ) / 16777216 < 0 := div_neg_of_neg_of_pos (not_le.1 k) (by norm_num)
      linarith
    exact_mod_cast this
  have n1 : n ≤ 16777216 := by
    have : (n : ℚ) ≤ 16777216 := by rwa [div_le_one (by norm_num)] at h1
    exact_mod_cast this
  rcases lt_or_eq_of_le n1 with l | e
  · refine ⟨n, -24, ?_, by decide, ?_⟩
    · rw [abs_of_nonneg n0]; exact l
    · rw [pow2_eq]; norm_num; ring
  · have : (n : ℚ) / 16777216 = pow2 0 := by rw [e, pow2_eq]; norm_num
    rw [this]; exact IsRep.pow2 (by decide)

/-- From one half on every 32-bit number is on the grid. -/
theorem upper_grid {q : ℚ} (h : IsRep b32 q) (h0 : 1 / 2 ≤ q) : OnGrid q := by
  obtain ⟨m, e, hm, -, rfl⟩ := h
  have hm' : |(m : ℚ)| < 16777216 := by
    have : ((|m| : ℤ) : ℚ) < ((2 ^ 24 : ℤ) : ℚ) := by exact_mod_cast hm
    rw [Int.cast_abs] at this; norm_num at this ⊢; exact this
  by_cases he : -24 ≤ e
  · obtain ⟨k, hk⟩ := Int.eq_ofNat_of_zero_le (show 0 ≤ e + 24 by omega)
    refine ⟨m * 2 ^ k, ?_⟩
    have : e = (k : ℤ) - 24 := by omega
    rw [this, pow2_sub, pow2_nat, pow2_eq]
    push_cast; ring
  · exfalso
    have p : pow2 e ≤ pow2 (-25) := pow2_le (by omega)
    have p0 := pow2_pos e
    rw [show pow2 (-25) = 1 / 33554432 by rw [pow2_eq]; norm_num] at p
    have := le_abs_self (m : ℚ)
    nlinarith

/-- The complement of a number on the grid is exact. -/
theorem grid_complement {q : ℚ} (h : OnGrid q) (h0 : 0 ≤ q) (h1 : q ≤ 1) : rn b32 (1 - q) = 1 - q := by
  refine rn_rep (grid_rep ?_ (by linarith) (by linarith))
  obtain ⟨n, rfl⟩ := h
  exact ⟨16777216 - n, by push_cast; ring⟩

/-- Every complement is on the grid. -/
theorem complement_grid {q : ℚ} (h : IsRep b32 q) (h0 : 0 ≤ q) (h1 : q ≤ 1) : OnGrid (rn b32 (1 - q)) := by
  rcases le_total (1 / 2) q with k | k
  · have g := upper_grid h k
    rw [grid_complement g h0 h1]
    obtain ⟨n, rfl⟩ := g
    exact ⟨16777216 - n, by push_cast; ring⟩
  · refine upper_grid (rn_isRep _ _) ?_
    have r : IsRep b32 (1 / 2) := by
      have : (1 / 2 : ℚ) = pow2 (-1) := by rw [pow2_eq]; norm_num
      rw [this]; exact IsRep.pow2 (by decide)
    exact rep_le_rn r (by linarith)

section
variable [Libm b32]

theorem complement_is {x : F32} (hx : Chan x) :
    (lit 1 -. x : F32) = FP.ofRat b32 false (1 - x.val) ∧ Chan (lit 1 -. x : F32) ∧ (lit 1 -. x : F32).val = rn b32 (1 - x.val) ∧
      OnGrid (lit 1 -. x : F32).val := by
  have s : (FP.ofRat b32 false 1).isNeg = false := by decide +kernel
  have e : (lit 1 -. x : F32) = FP.ofRat b32 false (1 - x.val) := by
    show FP.sub (FP.ofRat b32 false 1) x = _
    rw [FP.sub_fin FP.lit1.1 hx.1, FP.lit1.2, s, Bool.false_and]
  have a := C26_invert ⟨x, x, x, x⟩ hx hx hx
  refine ⟨e, a.1, a.2.1, ?_⟩
  have : (lit 1 -. x : F32).val = rn b32 (1 - x.val) := a.2.1
  rw [this]
  exact complement_grid (FP.fin_rep hx.1).1 hx.2.1 hx.2.2

theorem thrice {x : F32} (hx : Chan x) : (lit 1 -. (lit 1 -. (lit 1 -. x)) : F32) = lit 1 -. x := by
  obtain ⟨a0, a1, a2, a3⟩ := complement_is hx
  obtain ⟨b0, b1, b2, b3⟩ := complement_is a1
  obtain ⟨d0, d1, d2, d3⟩ := complement_is b1
  have hb : (lit 1 -. (lit 1 -. x) : F32).val = 1 - (lit 1 -. x : F32).val := by
    rw [b2]; exact grid_complement a3 a1.2.1 a1.2.2
  by_cases z : (lit 1 -. x : F32).val = 0
  · have one : (1 : ℚ) - x.val = 0 := by
      by_contra ne
      have pos : 0 < 1 - x.val := lt_of_le_of_ne (by linarith [hx.2.2]) (Ne.symm ne)
      rcases le_total (1 / 2) x.val with k | k
      · rw [a2, grid_complement (upper_grid (FP.fin_rep hx.1).1 k) hx.2.1 hx.2.2] at z
        linarith
      · have r : IsRep b32 (1 / 2) := by
          have : (1 / 2 : ℚ) = pow2 (-1) := by rw [pow2_eq]; norm_num
          rw [this]; exact IsRep.pow2 (by decide)
        have := rep_le_rn (q := 1 - x.val) r (by linarith)
        rw [a2] at z; linarith
    have l : (lit 1 -. (lit 1 -. (lit 1 -. x)) : F32) = FP.ofRat b32 false 0 := by
      rw [d0, hb, z]; norm_num
    rw [l, a0, one]
  · refine (FP.ext_val a1.1 d1.1 ?_ z).symm
    rw [d2, hb, show (1 : ℚ) - (1 - (lit 1 -. x : F32).val) = (lit 1 -. x : F32).val by ring, rn_rep (FP.fin_rep a1.1).1]

/-- **Three times is once**: to the last bit. -/
theorem C147_thrice (c : Col F32) (h0 : Chan c.c0) (h1 : Chan c.c1) (h2 : Chan c.c2) :
    Rgb.invert (Rgb.invert (Rgb.invert c)) = Rgb.invert c := by
  show (⟨_, _, _, _⟩ : Col F32) = ⟨_, _, _, _⟩
  congr 1
  · exact thrice h0
  · exact thrice h1
  · exact thrice h2

/-- **When a negative can be undone exactly**: when the channels are multiples of 2⁻²⁴, and only then. -/
theorem C147_twice (c : Col F32) (h0 : Chan c.c0) (h1 : Chan c.c1) (h2 : Chan c.c2) :
    exact (Rgb.invert (Rgb.invert c)) = exact c ↔ OnGrid c.c0.val ∧ OnGrid c.c1.val ∧ OnGrid c.c2.val := by
  have key : ∀ {x : F32}, Chan x → ((lit 1 -. (lit 1 -. x) : F32).val = x.val ↔ OnGrid x.val) := by
    intro x hx
    obtain ⟨-, a1, a2, -⟩ := complement_is hx
    obtain ⟨-, b1, b2, b3⟩ := complement_is a1
    constructor
    · intro e; rw [← e]; exact b3
    · intro g
      rw [b2, a2, grid_complement g hx.2.1 hx.2.2, show (1 : ℚ) - (1 - x.val) = x.val by ring, rn_rep (FP.fin_rep hx.1).1]
  rw [← key h0, ← key h1, ← key h2]
  constructor
  · intro e
    refine ⟨?_, ?_, ?_⟩
    · have : (((lit 1 -. (lit 1 -. c.c0) : F32).val : ℚ) : ℝ) = (c.c0.val : ℝ) := congrArg Col.c0 e
      exact_mod_cast this
    · have : (((lit 1 -. (lit 1 -. c.c1) : F32).val : ℚ) : ℝ) = (c.c1.val : ℝ) := congrArg Col.c1 e
      exact_mod_cast this
    · have : (((lit 1 -. (lit 1 -. c.c2) : F32).val : ℚ) : ℝ) = (c.c2.val : ℝ) := congrArg Col.c2 e
      exact_mod_cast this
  · rintro ⟨e0, e1, e2⟩
    show (⟨(((lit 1 -. (lit 1 -. c.c0) : F32).val : ℚ) : ℝ), (((lit 1 -. (lit 1 -. c.c1) : F32).val : ℚ) : ℝ),
      (((lit 1 -. (lit 1 -. c.c2) : F32).val : ℚ) : ℝ), (c.alpha.val : ℝ)⟩ : Col ℝ) = _
    rw [e0, e1, e2]; rfl

/-- **Light colours**: channels of at least one half come back. -/
theorem C147_light (c : Col F32) (h0 : Chan c.c0) (h1 : Chan c.c1) (h2 : Chan c.c2)
    (l0 : 1 / 2 ≤ c.c0.val) (l1 : 1 / 2 ≤ c.c1.val) (l2 : 1 / 2 ≤ c.c2.val) :
    exact (Rgb.invert (Rgb.invert c)) = exact c :=
  (C147_twice c h0 h1 h2).2 ⟨upper_grid (FP.fin_rep h0.1).1 l0, upper_grid (FP.fin_rep h1.1).1 l1, upper_grid (FP.fin_rep h2.1).1 l2⟩

/-- **Pictures**: the negative of the negative of a negative is that negative, as long as all channels are in [0, 1]. -/
theorem C147_pictures {b : PixelBuffer (Col F32)} {w h px} (s : Shows b w h px)
    (u : ∀ x y, x < w → y < h → UnitCol (px x y)) :
    ((b.map_colors Rgb.invert).map_colors Rgb.invert).map_colors Rgb.invert = b.map_colors Rgb.invert := by
  refine Shows.eq (C07_map_colors (C07_map_colors (C07_map_colors s _) _) _) ((C07_map_colors s _).congr ?_)
  intro x y hx hy
  exact (C147_thrice _ (u x y hx hy).c0 (u x y hx hy).c1 (u x y hx hy).c2).symm

end

/-- The darkest gray of a byte picture but black. -/
def darkest : F32 := FP.ofRat b32 false (1 / 255)

theorem darkest_chan : Chan darkest := by
  refine ⟨by decide +kernel, by decide +kernel, by decide +kernel⟩

/-- **The darkest grays do not come back exactly**: not even the gray of a byte picture next to black. -/
theorem C147_dark (lib : Libm b32) : letI := lib
    exact (Rgb.invert (Rgb.invert (⟨darkest, darkest, darkest, darkest⟩ : Col F32))) ≠ exact ⟨darkest, darkest, darkest, darkest⟩ := by
  let _ := lib
  intro e
  obtain ⟨⟨n, hn⟩, -⟩ := (C147_twice _ darkest_chan darkest_chan darkest_chan).1 e
  have k : (darkest.val * 16777216).den ≠ 1 := by decide +kernel
  refine k ?_
  have : darkest.val * 16777216 = (n : ℚ) := by
    have hn' : darkest.val = n / 16777216 := hn
    rw [hn']; field_simp
  rw [this]; rfl

/-- Non-vacuity: the two ends of the scale, and one half. -/
example : Chan darkest ∧ OnGrid (1 / 2) ∧ ¬ OnGrid (1 / 3) := by
  refine ⟨darkest_chan, ⟨8388608, by norm_num⟩, ?_⟩
  rintro ⟨n, h⟩
  have : (16777216 : ℚ) = 3 * n := by field_simp at h; linarith
  have : (16777216 : ℤ) = 3 * n := by exact_mod_cast this
  omega

end D10
